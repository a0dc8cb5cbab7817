# A Lean 4 model of ntex-amqp

`lean/Verif/Model` is a translation of the Rust code into Lean, `lean/Verif/Spec` says what is expected of it without
using the model's own helpers, `lean/Verif/Lemmas` holds the proofs' machinery, and `lean/Verif/Props` the theorems listed
in `MANIFEST.json`.  `properties.jsonl` has the properties in English.

## Trusted base

* The kernel of Lean 4.33.0 and the definitions of Mathlib and Lean core that are imported (one Mathlib module at a time).
* The axioms `propext`, `Classical.choice` and `Quot.sound`, and no others.  There is no `sorry`, no `native_decide`, no
  `bv_decide` and no axiom of our own.  Which theorem uses which is listed at the end of this file.
* The hand translation.  Every definition in `Model/` cites the file and lines it stands for.  Nothing checks it against
  the Rust code except reading; the code was neither built nor run.
* The specifications in `Spec/`.  They are meant to be read; the parts that restate AMQP 1.0 (`Spec/Standard.lean`,
  `Spec/StandardTypes.lean`, `Spec/Structs.lean`) were written from the standard.
* The semantics of what the code calls: `slab`, `HashMap`, `VecDeque`, `ntex_bytes`, one-shot channels, the executor.  They
  are modelled as far as the code observes them (below).

## How the code is represented

* Bytes are `List UInt8`.  Machine integers are Lean's `UInt8` … `UInt64` and `Int8` … `Int64`, which wrap as release-mode
  Rust does.  Lengths (`usize`) are `Nat`: nothing longer than the address space is considered.
* A decoder `fn decode(&mut Bytes) -> Result<T>` is a function from bytes to a value and the rest, an error, or a *panic*.
  A Rust panic is an explicit outcome, so "does not panic" is a statement about the model.
* Floats are their bit patterns.  Strings are byte lists with a predicate for valid UTF-8.
* `HashMap`s of the codec are lists of entries in iteration order (any order, so all orders are covered); those of the
  runtime are association lists without duplicate keys.  `Slab` is a list of cells with the free list of the real one, so
  that the reuse of keys is the real one.
* `Rc<UnsafeCell<T>>` objects live in a list and are referred to by index.  Aliasing is therefore explicit.
* The executor is single-threaded and cooperative.  A block of code between two `await`s is one atomic step, a suspended
  future is a value in the state, and an execution is an *arbitrary* list of steps: frames of the peer, calls of the
  application, answers of its services, polls of futures in any order, dropped futures, connection failures.  Statements
  about "every execution" quantify over all such lists.  Real executions are among them; some of the lists are not real
  (no fairness, no causality between wake-ups and polls), which makes the theorems stronger and is harmless for the
  witnesses, each of which is a sequence that the real scheduler can produce.
* What a component does to the outside (frames posted, channels completed, services called) is appended to a log in the
  state.  Properties are mostly statements about the log.
* `u32` overflow in unchecked arithmetic is marked by an event `overflow`; the state carries the wrapped value.  A debug
  build panics there, a release build goes on as modelled.

## What is modelled

| code | model | remarks |
|------|-------|---------|
| codec/src/codec/mod.rs, types/mod.rs, error.rs | `Model/Basic.lean` | readers, `decode_check_len!`, constructors, descriptors, errors |
| codec/src/codec/encode.rs, decode.rs (scalars) | `Model/Prim.lean` | every primitive type, array element forms, UTF-8 validation, timestamps |
| codec/src/codec/encode.rs, decode.rs (collections), types/array.rs | `Model/Compound.lean` | maps, vec-maps, arrays, `Multiple`, lists |
| codec/src/types/variant.rs, codec/src/types/array.rs, codec | `Model/Variant.lean` | the whole value tree, described values, hashing of map keys as far as it panics |
| codec/src/types/array.rs:15-58, variant.rs:105-166, 199-240 | `Model/Values.lean` | making and reading arrays and described compounds, the accessors of `Variant` |
| codec/src/message/message.rs:117-155, body.rs:18-33, protocol/mod.rs:242-259 | `Model/Reading.lean` | lookups in a message, the message in a transfer |
| codec/src/types/mod.rs:117-147, encode.rs:656-692, decode.rs:350-369 | `Model/DescribedList.lean` | `ListDescribed` over any implementation of `Composite`; memory reserved by `with_capacity` is not modelled |
| codec/src/types/variant.rs:189-197, mod.rs:38-53, 215-219, symbol.rs:72-76 | `Model/Comparisons.lean` | comparing values with text, constructors with descriptors |
| src/client/error.rs:65-88 | `Model/Diagnostics.lean` | type and signature of a client's connection error; not `Connect` and `Io` |
| src/types.rs:131-154, dispatcher.rs:331-356 | `Model/Wrapper.lean` | the response to an attach, changed by the control service and taken by the dispatcher; no nested calls of `with` |
| src/lib.rs:103-240 | `Model/Config.lean` | the builder methods of the configuration, the view of the peer's |
| codec/src/protocol/definitions.rs, protocol/mod.rs | `Model/Composite.lean`, `Enums.lean`, `Structs.lean` | the generated code as one template and its instances; all enumerations; error conditions |
| codec/src/protocol/definitions.rs (`Transfer`, `Frame`), framing.rs | `Model/Frame.lean` | AMQP and SASL frames, headers, performative dispatch |
| codec/src/message/*, protocol/mod.rs (`TransferBody`, `Section`) | `Model/Message.lean` | messages with their size cache and every mutator, sections, nested bodies, replies |
| codec/src/io.rs | `Model/Io.lean` | the stream decoder as a state machine, protocol ids |
| src/error.rs, slab, HashMap | `Model/Runtime.lean` | |
| src/session.rs, sndlink.rs, rcvlink.rs, delivery.rs | `Model/Session.lean`, `SessionStep.lean` | every function that has an effect; builders are their results |
| src/connection.rs, control.rs, dispatcher.rs | `Model/Connection.lean` | frame routing, session table, error propagation, the control queue and the calls of the control service |
| src/dispatcher.rs (`ctl_fut`, `poll`, `handle_control_frame`) | `Model/Dispatcher.lean` | the calls of the control service in flight and the order in which their answers take effect; a dispatcher's connection is one of `Model/Connection.lean` |
| src/client/connector.rs, client/mod.rs, server/service.rs, server/handshake.rs, server/sasl.rs, lib.rs | `Model/Handshake.lean` | plain and SASL handshakes of both sides over byte streams, configurations |
| two sessions of the library and the transport between them | `Model/Pair.lean` | each direction keeps its order and loses nothing; frames arrive as the codec delivers them (C07) |
| two connections of the library and the transport between them | `Model/Net.lean` | as for `Model/Pair.lean`, with channels |
| the bytes between two connections: output buffer, transport, read buffer, codec | `Model/Stream.lean` | the transport loses, adds and reorders nothing; buffers have no limit |
| server/service.rs, client/connector.rs: from the handshake to the connection, both ends and the transport | `Model/EndToEnd.lean` | as for `Model/Stream.lean` |
| dispatcher.rs: the dispatcher as a service (`ready`, `call`, stopping) | `Model/Serve.lean` | what ntex does with the transport after an error of the service is not modelled |
| the attach frames of the link builders | `Model/Builder.lean` | `with_frame` and `property` left out: any frame may be attached |
| src/router.rs, types.rs (`Outcome`), dispatcher.rs (calls of the publish service) | `Model/Router.lean` | one session; every interleaving of its calls |
| src/error.rs (`AmqpError`, `LinkError`), error_code.rs | `Model/Errors.lean` | the builders, the conversions and the constants |
| server/service.rs: `ServerHandler::create`, the task of a connection | `Model/Incoming.lean` | but not the end of the transport while the services are made |
| rcvlink.rs: `reader_task`, who is woken when | `Model/Wake.lean` | wakers of receiver links only |
| sndlink.rs: `ready`, `on_credit` | `Model/Credit.lean` | a notification is where `closed` is set and where a flow frame leaves the link with credit |
| session.rs: `Session::end`, its result | `Model/EndSession.lean` | the future is polled against `ended`, which is set where `closed` is notified |
| connection.rs, session.rs: `is_opened`, `on_close`, `get_error`, the lookups | `Model/Observe.lean` | `IoRef::is_closed` is a parameter |
| dispatcher.rs, control.rs: when the dispatcher is polled | `Model/Tending.lean` | wakers of the control queue and of the calls of the control service |

## What is not modelled

* Sockets, TLS, the `ntex` I/O layer and dispatcher, back pressure of its write buffer, wake-ups other than
  those of readers of receiver links, of tasks that wait for credit and of the dispatcher (elsewhere any future may be polled at any time), and therefore liveness of the executor itself.
* Memory: allocation failure, the size of the stack and of values in bytes (C69 counts nodes, bytes of data, reserved
  elements and levels of recursion instead), and the
  validity of references obtained from `UnsafeCell` (see "Other observations").
* Logging, `Debug` and `Display`, `From` conversions between error types that only carry text, `state.rs`, `cell.rs`.  The default
  services of `default.rs` are the special case of C78.
* Pattern matching of the router (`ntex_router`) is an arbitrary function.
* The application's services are arbitrary: they answer anything at any time.
* Two connections of one application: they share nothing but the application.  (Two connections that are peers of each other
  are `Model/Net.lean`.)

## Violations

Each is proved of the model by a theorem with a concrete witness; the property keeps a `_partial` theorem for what does hold.

| property | what goes wrong | where | theorem |
|----------|-----------------|-------|---------|
| C02, C50 | a described value whose descriptor is 0 is not read back | decode.rs, `Descriptor` | `c02_zero_descriptor_lost`, `c50_zero_descriptor_not_accepted` |
| C02 | a described list comes back as something else | types/variant.rs | `c02_described_list_changes` |
| C02, C06 | a map used as a map key panics (`unimplemented!` in `Hash`) | types/variant.rs | `c02_map_as_key_panics` |
| C02 | the count of an array is cut to 32 bits | types/array.rs | `c02_array_count_truncated` |
| C06 | a compound header whose size is smaller than its count field panics; ten bytes suffice | decode.rs | `c06_hazards_panic`, `c06_open_frame_panics` |
| C17, C23 | five mutators leave the cached message size stale; the frame length is then wrong and a split message never ends | message.rs | `c17_stale_size`, `c17_stale_size_breaks_framing`, `c23_stale_size_never_ends` |
| C19, C50 | the sign of a timestamp before 1970 is lost | encode.rs, decode.rs | `c19_sign_lost_before_epoch`, `c50_timestamps_not_accepted` |
| C20 | a flow that revokes credit already used leaves almost 2^32 credits | sndlink.rs | `c20_revoked_credit_wraps` |
| C24 | with an announced max-frame-size of at most 2048 frames are too large | session.rs | `c24_small_limit_exceeded` |
| C25 | the window is charged per message, not per frame; a shrunk window or an absent next-incoming-id wraps | session.rs | `c25_split_delivery_overruns`, `c25_shrunk_window_wraps`, `c25_absent_id_wraps` |
| C26 | sends waiting for credit on a link this side closes wait for ever; a detach does not release sends waiting for the window | session.rs, sndlink.rs | `c26_close_strands_senders`, `c26_detach_misses_window` |
| C27 | a disposition whose range wraps past 2^32-1 is ignored | session.rs | `c27_wrapping_range_ignored` |
| C29 | a second wait on a delivery makes the first fail | delivery.rs | `c29_second_wait_breaks_first` |
| C31 | the aborted flag is ignored: an aborted message is delivered | rcvlink.rs | `c31_aborted_is_delivered` |
| C32 | the size limit is not checked on the first frame | rcvlink.rs | `c32_first_frame_unchecked` |
| C33 | refused links leave table entries, unknown handles are taken for slot numbers, names go stale, late acceptance: frames reach other links | session.rs | `c33_refused_detaches_other`, `c33_refused_transfer`, `c33_unknown_detaches_other`, `c33_stale_name`, `c33_late_accept` |
| C34 | a detach fails sends of other links that wait for the window; deliveries of a link closed locally stay pending and are inherited by the next link in the slot | session.rs | `c34_other_send`, `c34_closed_waits`, `c34_inherits` |
| C35 | a repeated Begin shares a channel; ending a session marks another one as closing and sends End twice (remote channel used as slab index); after 65536 sessions channels repeat | connection.rs, session.rs | `c35_remote_channel_shared`, `c35_local_channel_shared`, `c35_end_closes_another`, `c35_end_sent_twice` |
| C36 | the peer's channel-max is ignored | connection.rs | `c36_peer_limit_ignored` |
| C37 | a Begin after failure is obeyed; sessions being ended are not told; receivers close without the error; sessions being opened report another error | connection.rs | `c37_begin_after_failure`, `c37_closing_not_told`, `c37_receiver_not_told`, `c37_opening_other_error` |
| C38 | the client does not look at the frame in the place of the mechanisms: it sends its password to a server that offered nothing or refused | connector.rs | `c38_credentials_for_any_frame`, `c38_refusal_ignored` |
| C39 | an outcome other than ok still yields a success token; after a challenge the server waits for one more SASL frame and stalls | sasl.rs | `c39_refused_but_opened`, `c39_challenge_stalls` |
| C40 | control frames made from the peer's frames overtake queued ones | dispatcher.rs | `c40_direct_overtakes` |
| C42 | a message taken before a detach is given to the released handler after it; the handler of a link closed locally is never released | router.rs | `c42_dispatch_after_detach`, `c42_closed_link_keeps_handler` |
| C43 | a grant while credit is left announces only the increment; the peer's initial delivery-count is ignored on links attached by this side | rcvlink.rs | `c43_increment_announced`, `c43_local_count_wrong` |
| C46 | a delivery the receiver has accepted is rejected when the object is dropped | delivery.rs | `c46_accepted_then_rejected` |
| C47 | a settlement without a state never resolves a wait; modified is reported once | delivery.rs | `c47_settled_without_state_blocks`, `c47_modified_reported_once` |
| C48 | a new send overtakes sends that were woken and not yet polled | session.rs, sndlink.rs | `c48_new_send_overtakes` |
| C52 | 0x56 0x02 is accepted as true; symbols may be non-ASCII | decode.rs | `c52_boolean_two_accepted`, `c52_symbol_not_ascii_accepted` |
| C53 | next-incoming-id does not count transfers received and is missing from echo answers | session.rs | `c53_incoming_stale`, `c53_incoming_missing` |
| C54 | the error of a receiver detach is withheld from the control service | session.rs | `c54_error_withheld` |
| C55 | filters with described values, as the standard has them, are refused | definitions.rs | `c55_filters_not_read` |
| C58 | the peer crashes the session: End, Detach or a lost connection between its attach and the acceptance (`expect`); detaching a receiver link not yet answered (`unimplemented!`); counters overflow in debug builds | session.rs, rcvlink.rs | `c58_end_then_accept`, `c58_detach_then_accept`, `c58_fail_then_accept`, `c58_detach_opening`, `c58_count_overflows`, `c58_credit_overflows` |
| C59 | a server announces `max_frame_size` and enforces `max_size` (0, i.e. no limit, by default) | server/service.rs:302 | `c59_server_limit_differs`, `c59_server_no_limit` |
| C61 | a link is established though neither service has answered for it: its slot was freed under a link still being attached, and the acceptance of that one is taken for it; the peer alone can arrange this | session.rs:675-692, rcvlink.rs:86-94 | `c61_unaccepted_used`, `c61_unaccepted_used_by_peer` |
| C63 | credit granted while some is left is announced as if there were none; with messages on their way the sender's credit becomes 2³²−1 and the receiver refuses what it sends | rcvlink.rs:292-299, sndlink.rs:292-310 | `c63_early_grant_refused` |
| C64 | the attach that refuses the peer's receiver carries the peer's own role | session.rs:566 | `c64_refusal_has_peers_role` |
| C64 | the role in the peer's answer is not checked; a sender and a receiver of one name are confused | session.rs:869-937 | `c64_role_not_checked`, `c64_both_directions` |
| C64 | the peer's links are registered under their source address: a later attach whose name is that address is never answered | session.rs:467-470, 872 | `c64_attach_ignored` |
| C64 | attach frames of `build_sender_link` have no initial-delivery-count, mandatory for a sender | sndlink.rs:445 | `c64_builder_no_count` |
| C64 | a receiver link announces the configured limit and enforces 262144 bytes | rcvlink.rs:244, 519 | `c64_announced_limit`, `c64_announced_limit_exceeded` |
| C64 | a peer's limit of 0 ("no limit") makes every non-empty send fail | sndlink.rs:215, delivery.rs:336 | `c64_zero_limit` |
| C65 | a detach that does not close is answered with one that does; closing a link before the peer answered never completes; the peer's detach of a link still being offered is not answered | session.rs:966-1037 | `c65_always_closes`, `c65_opening_never_closed`, `c65_detach_unanswered` |
| C66 | a send that waits for the session window transfers after the link was detached by either side; credit granted after close, or before the attach, is announced; a late acceptance attaches a second link under a handle in use | session.rs:1178-1290, rcvlink.rs:292-298 | `c66_transfer_after_close`, `c66_transfer_after_detach`, `c66_flow_after_close`, `c66_flow_before_attach`, `c66_attached_twice` |
| C67 | a peer that announces an idle timeout of 1 to 1333 ms is never pinged: the timeout is cut to whole seconds of three quarters of it | lib.rs:242-254 | `c67_short_timeouts` |
| C69 | ten bytes decode to a `Vec<u32>` of 2³²-1 elements; a list, map or array of a dozen bytes makes its decoder call `with_capacity` with up to 2³²-1 (also from the properties and capabilities of an `Open`, before authentication); nesting costs three bytes a level and is not limited | decode.rs:242-348, 371-471; array.rs:36-50 | `c69_hollow_array`, `c69_reserve_unbounded`, `c69_deep` |
| C71 | answers of the control service take effect out of order when three or more calls are outstanding: of three flow frames read at once the second is applied last, and the link is left with its credit | dispatcher.rs:119-137 (`swap_remove`) | `c71_out_of_order`, `c71_stale_credit` |
| C72 | nothing keeps the kinds of message body apart: after `with_body` and `set_value` both a data and a value section are written, which is no message of the standard | message.rs:32-37, 243-246; body.rs:59-85 | `c72_mixed_body` |
| C73 | the size of frames other than transfers is not compared with the peer's max-frame-size: an attach with a long name goes out and the peer refuses it | session.rs, connection.rs:238-245 (`post_frame`) | `c73_attach_over_limit` |
| C74 | the constant `ERRANT_LINK` is misspelt (`amqp:session-errant-link` for `amqp:session:errant-link`); a peer does not recognise it | error_code.rs:28 | `c74_errant_link` |
| C77 | the peer's `Close` is answered twice (at once, and again by the readiness check after the control service has answered); a peer whose frame is refused gets no `Close` at all; the `Close` after a decoding error or a timeout does not say why; a `Begin` after the peer's `Close` is answered | connection.rs:366-383; dispatcher.rs:69-73, 180-187 | `c77_answered_twice`, `c77_refusal_untold`, `c77_reason_withheld`, `c77_begin_after_close` |
| C78 | `start_default` is documented to close the connection on any control message; it accepts the peer's links, gives them credit and never settles what arrives | client/connection.rs:61-73 | `c78_default_accepts` |
| C79 | a link attached on a session that is already over is never answered; the acceptance of a link the peer has taken back drops the request of the link that got its slot | session.rs:438-458, 648-673 | `c79_attach_after_end`, `c79_attach_displaced` |
| C80 | a session between two endpoints of the library in which messages go one way stops for good after 2^32-1 deliveries: the receiving end computes the next incoming id and discards it | session.rs:847 | `c80_stops` |
| C81 | `Session::detach_receiver_link`, and a late answer about a sender link that hits the slot of a receiver link, close an established receiver link without waking the task that reads it; the task sleeps for ever | rcvlink.rs:471-475, session.rs:585-588 | `c81_detach_sleeps`, `c81_sleeps_for_ever` |
| C82 | a client that is sent another SASL frame where the outcome is due reports `Disconnected`, although the stream is open and the frame is the reason | client/connector.rs:228-230 | `c82_client_misreports` |
| C83 | a publish or control factory that fails leaves the peer with an opened connection that is dropped without a `Close`; the handshake timeout does not cover the making of the services | server/service.rs:167-187 | `c83_failure_untold`, `c83_open_then_dropped`, `c83_never_given_up` |
| C84 | a poll of the dispatcher that ends with a protocol error leaves the other calls of the control service, answered or not, without anybody who would wake the task for them; the waker it uses for the error is never registered | dispatcher.rs:135-139 | `c84_left_by_error`, `c84_answer_unheard` |
| C85 | a sender link that the control service has been shown but has not accepted is not closed when the connection fails or the service refuses it; a task that waits in `SenderLink::ready` on it sleeps for ever | session.rs:360-380, 555-591 | `c85_unaccepted_sleeps`, `c85_refused_sleeps` |
| C86 | a session that is being ended when the connection fails is dropped without being told: the future of `Session::end` is never completed, whatever happens afterwards | connection.rs:219-236, session.rs:101-128 | `c86_forgotten`, `c86_forgotten_witness` |
| C86 | `Session::end` on a session that failed with its connection reports success | session.rs:104-105, 119-126 | `c86_loss_is_success` |
| C87 | `get_sender_link(name)` returns a link of another name: names of closed links stay registered for their slot; likewise the handles of refused links | session.rs:130-139, 455, 602-609, 781-788 | `c87_wrong_name`, `c87_wrong_remote` |
| C87 | `Connection::close` sets neither a state nor an error: `on_close` is not told, and sessions are found and opened as before until the transport ends (`ConnectionState::Closing` is never assigned) | connection.rs:158-163 | `c87_close_unseen` |
| C87 | after `Session::end` the session is still found under its channel and another one is not (the peer's channel is used as slab index) | session.rs:108, connection.rs:179-185 | `c87_ended_found` |
| C88 | `Array::decode` ignores what follows the last item in the payload, where `DescribedCompound::decode` refuses it | types/array.rs:40-48 | `c88_array_excess` |
| C88 | a `DescribedCompound` made from a value that is no compound is decoded by the peer as `Variant::Described` | types/variant.rs:115-123 | `c88_described_simple` |
| C88 | the bytes in the documentation of `DescribedCompound` (`c0 02 01 50 03`) have the wrong size; they are decoded to a value that cannot be read, with a byte left over | types/variant.rs:108-112, 134-141 | `c88_documented_bytes` |
| C88 | `as_long` gives no `ulong`, however small; `as_ulong` no number of signed type (documented) | types/variant.rs:208-232 | `c88_withheld` |
| C89 | `set_app_property` and `add_message_annotation` append; a key set again is read back with its first value, and is sent twice in one map, which AMQP 1.0 §1.6.23 forbids; a receiver with a hash map sees the last | message.rs:129-145, 159-175 | `c89_not_replaced`, `c89_annotation_not_replaced`, `c89_sent_twice` |
| C89 | a message without sections arrives as a transfer without body; `load_message` then fails | protocol/mod.rs:252-258 | `c89_empty_not_loaded` |
| C89 | `MessageBody::data` gives the first of several data sections | body.rs:18-24 | `c89_data_first` |
| C90 | a NUL in the user name or authorization identity is not refused: the PLAIN response is then that of other credentials, or has no reading under RFC 4616 | protocol/mod.rs:199-201, connector.rs:201-202 | `c90_confused`, `c90_unreadable` |
| C91 | an idle timeout of one second, set by `set_idle_timeout(1)`, makes a peer of this library send nothing to keep the connection alive (0.75 s is rounded to 0 s) | lib.rs:148-151, 242-254 | `c91_one_second` |
| C91 | a maximum frame size below 512 is announced, though every peer must accept frames of 512 bytes (AMQP 1.0 §2.7.1) | lib.rs:134-137 | `c91_below_minimum` |
| C92 | a `ListDescribed` of items whose encoding is no compound is written, but refused on reading; `Composite` does not ask for one | codec/mod.rs:38-40, decode.rs:357-364 | `c92_simple_refused`, `c92_not_back` |
| C94 | `sys-perm`, a permanent system error of the server (AMQP 1.0 §5.3.3.6), is classified as an error of the client | client/error.rs:66-74 | `c94_sys_perm` |
| C95 | a control service that keeps its control frame and calls `Wrapper::with` after it has answered panics (`unwrap` of what the dispatcher took) | types.rs:148-153, dispatcher.rs:338, 353 | `c95_after` |

## Other observations

Found while reading; not stated as theorems because the thing that goes wrong is not modelled.

* `router.rs:202-219` keeps `&Pipeline` borrowed from a table in an `UnsafeCell` across `await`.  If the entry is removed or
  the table grows meanwhile, the reference dangles: undefined behaviour.  `c42_dispatch_after_detach` is an execution that
  uses such a reference.
* `session.rs` has an `unimplemented!()` for detaching a receiver link that is being opened (marked `panic` in the model),
  and an `.expect` in the handling of a sender attach.
* `dispatcher.rs:137` wakes `ctl_error_waker`, which nothing ever registers; whether the error set there is noticed at once
  depends on the I/O dispatcher polling `ready` after `poll`.
* The server's stream decoder limits frames by `max_size` (default: no limit), not by the `max_frame_size` it announces.
* PLAIN responses are built by concatenation with NUL separators without checking the identities for NULs.
* The idle timeout a side announces (`lib.rs:211-215`) is not used by the library itself: whether a silent peer is dropped depends on
  the keep-alive settings of the I/O layer.

## Mutation tests

`seeded/LOG.jsonl` records wrong programs made by editing the model the way a real bug would, and which theorems then fail
to build.  Where none failed a theorem was added or tightened and the mutant run again.
Edits after which the model itself no longer type-checks say nothing about the theorems; they are not recorded.
## Properties, theorems and axioms

Axioms: P = `propext`, C = `Classical.choice`, Q = `Quot.sound`.  Theorems are in `lean/Verif/Props`.

### C01 — Primitive values survive encode/decode (proved)

For every value of each primitive type and every suffix. Strings and symbols must be valid UTF-8 shorter than 2^32 bytes; timestamps are C19.

* `c01_primitives_round_trip` (Codec.lean) — PCQ
* `c01_fixed_width_unconditional` (Codec.lean) — PCQ

### C02 — Any AMQP value tree survives encode/decode (partial)

Round trip for every well-formed value tree, by structural induction. Well-formedness excludes four shapes for which the round trip is proved false of the code, with witnesses: zero descriptors, described lists, maps used as map keys, arrays with more than 2^32 elements.

* `c02_variant_round_trip` (Codec.lean) — PCQ
* `c02_zero_descriptor_lost` (Codec.lean) — PQ
* `c02_described_list_changes` (Codec.lean) — PQ
* `c02_map_as_key_panics` (Codec.lean) — PQ
* `c02_array_count_truncated` (Codec.lean) — PQ
* `c02_unconditional_false` (Codec.lean) — PQ
* `c02_collections_round_trip` (Codec.lean) — PCQ

### C03 — encoded_size is exact (proved)

Every Variant, protocol type, message and frame; the frame length prefix equals the number of bytes written.

* `c03_encoded_size_exact` (Codec.lean) — PCQ
* `c03_protocol_encoded_size_exact` (Codec.lean) — PCQ
* `c03_frame_length_prefix` (Frame.lean) — PCQ
* `c03_message_size_exact` (Message.lean) — PCQ

### C04 — Decoding never looks past the value (proved)

Every Wire type; typed arrays are shown to need following bytes (a witness) and satisfy the weaker form for later bytes.

* `c04_reads_only_itself` (Codec.lean) — PCQ
* `c04_protocol_reads_only_itself` (Codec.lean) — PCQ
* `c04_arrays_ignore_later_bytes` (Codec.lean) — PCQ
* `c04_array_needs_following_bytes` (Codec.lean) — none

### C05 — A truncated value is never accepted (proved)

No strict prefix of any encoding decodes.

* `c05_truncation_detected` (Codec.lean) — PCQ
* `c05_protocol_truncation_detected` (Codec.lean) — PCQ

### C06 — Hostile bytes cannot crash the decoder (partial)

False of the code as written: witnesses for undersized compound headers and for maps as map keys, down to a 10-byte frame. Proved: scalars and enumerations never panic; every other decoder, the frame decoders, the message decoder and the stream codec panic only on inputs that contain one of those byte patterns. Stack exhaustion by deep nesting is not modelled.

* `c06_scalars_never_panic` (Panic.lean) — PCQ
* `c06_values_panic_only_on_hazard_partial` (Panic.lean) — PCQ
* `c06_protocol_panic_only_on_hazard_partial` (Panic.lean) — PCQ
* `c06_frames_panic_only_on_hazard_partial` (Panic.lean) — PCQ
* `c06_stream_panic_only_on_hazard_partial` (Panic.lean) — PCQ
* `c06_hazards_panic` (Panic.lean) — PQ
* `c06_open_frame_panics` (Panic.lean) — PCQ
* `c06_variant_not_panic_free` (Panic.lean) — PQ

### C07 — AMQP and SASL frames survive the wire (proved)

Single frames and whole streams, AMQP and SASL.

* `c07_amqp_frame_read_back` (Frame.lean) — PCQ
* `c07_sasl_frame_read_back` (Frame.lean) — PCQ
* `c07_frames_otherwise_identical` (Frame.lean) — PCQ
* `c07_amqp_stream` (Frame.lean) — PCQ
* `c07_sasl_stream` (Frame.lean) — PCQ
* `c07_example_wf` (Frame.lean) — PCQ

### C08 — Frame decoding does not depend on how bytes are chunked (proved)

Any sequence of chunks; same frames, same first error.

* `c08_chunking_irrelevant` (Frame.lean) — PCQ
* `c08_stream_meaning` (Frame.lean) — PCQ

### C09 — Oversized frames are refused from their header (proved)

All headers and limits.

* `c09_refused_from_header` (Frame.lean) — PQ
* `c09_yielded_frames_within_limit` (Frame.lean) — PCQ
* `c09_waits_only_within_limit` (Frame.lean) — PCQ

### C10 — Protocol header negotiation is exact (proved)

All byte strings.

* `c10_protocol_header_exact` (Frame.lean) — PQ
* `c10_inverts_encoder` (Frame.lean) — P

### C11 — Every performative's fields survive the wire (proved)

All nine performatives and the other composites; one exception proved with a witness: a transfer with an empty payload is read back with the payload absent.

* `c11_performatives_round_trip` (Composite.lean) — PCQ
* `c11_other_composites_round_trip` (Composite.lean) — PCQ
* `c11_transfer_round_trip` (Composite.lean) — PCQ
* `c11_transfer_message` (Composite.lean) — PCQ
* `c11_empty_body_becomes_absent` (Composite.lean) — PCQ

### C12 — Omitted fields mean their defaults; missing mandatory fields are errors (proved)

All layouts: omitted and null fields take their defaults; missing mandatory fields are refused.

* `c12_omitted_fields_default` (Composite.lean) — PCQ
* `c12_missing_mandatory_rejected` (Composite.lean) — PCQ

### C13 — Symbolic and numeric descriptors are interchangeable (proved)

All composite types and all dispatch points.

* `c13_descriptors_interchangeable` (Composite.lean) — PCQ
* `c13_unknown_descriptor_rejected` (Composite.lean) — PCQ
* `c13_delivery_state_selected` (Composite.lean) — PCQ
* `c13_outcome_selected` (Composite.lean) — PCQ
* `c13_sasl_selected` (Composite.lean) — PCQ
* `c13_frame_selected` (Composite.lean) — PCQ
* `c13_section_selected` (Composite.lean) — PCQ

### C14 — Fields from future protocol revisions are ignored (proved)

All composites.

* `c14_extra_fields_ignored` (Composite.lean) — PCQ

### C15 — Enumerated fields accept exactly the specified values (proved)

Whole tables. Custom conditions spelled like standard ones are absorbed (witness).

* `c15_enumerations` (Composite.lean) — PCQ
* `c15_open_enumerations` (Composite.lean) — PCQ
* `c15_custom_absorbed` (Composite.lean) — PCQ

### C16 — Messages survive encode/decode (proved)

All well-formed messages; any order of sections.

* `c16_sections` (Message.lean) — PCQ
* `c16_message_round_trip` (Message.lean) — PCQ
* `c16_sections_preserved` (Message.lean) — PCQ
* `c16_forwarding_stable` (Message.lean) — PCQ
* `c16_message_through_transfer` (Message.lean) — PCQ
* `c16_any_section_order` (Message.lean) — PCQ

### C17 — Message size is right after any mutations (partial)

False of the code: five mutators leave the cached size stale (witnesses), which breaks framing. Proved for every sequence of the remaining operations.

* `c17_size_after_mutations_partial` (Message.lean) — PCQ
* `c17_resetting_operations_partial` (Message.lean) — PCQ
* `c17_asking_changes_nothing` (Message.lean) — PCQ
* `c17_stale_size` (Message.lean) — PCQ
* `c17_stale_size_breaks_framing` (Message.lean) — PCQ

### C18 — Arrays and multiple-valued fields survive the wire (proved)

All array-encodable element types; described elements are refused (witness).

* `c18_arrays_round_trip` (Codec.lean) — PCQ
* `c18_multiple_round_trip` (Codec.lean) — PCQ
* `c18_single_is_bare` (Codec.lean) — P
* `c18_single_either_way` (Codec.lean) — PCQ
* `c18_described_elements_refused` (Codec.lean) — PCQ

### C19 — Timestamps survive the wire to millisecond precision (partial)

Proved from the epoch on. Before the epoch the sign is lost (witness), with the exact result stated.

* `c19_timestamp_partial` (Codec.lean) — PCQ
* `c19_before_epoch_partial` (Codec.lean) — PCQ
* `c19_sign_lost_before_epoch` (Codec.lean) — P
* `c19_whole_second_before_epoch` (Codec.lean) — P

### C20 — A sender never exceeds the credit the receiver granted (partial)

Proved for every execution: the units of credit used since a flow are at most delivery-count + credit - own count in 32-bit serial arithmetic, and no delivery goes out without one; with the peer counting correctly this is the plain statement. Missing: a flow that revokes credit already used wraps to almost 2^32 (witness).

* `c20_sends_within_credit` (Sending.lean) — PCQ
* `c20_total_sent_partial` (Sending.lean) — PCQ
* `c20_revoked_credit_wraps` (Sending.lean) — PCQ

### C21 — Credit computed from flow matches the specification (proved)

Every counter position; includes the in-step and behind cases.

* `c21_credit_from_flow` (Sending.lean) — PCQ
* `c21_credit_in_step` (Sending.lean) — PCQ
* `c21_credit_behind` (Sending.lean) — PCQ
* `c21_no_credit_no_change` (Sending.lean) — P

### C22 — Delivery ids are consecutive and never reused while in flight (proved)

Every execution of a session: ids are 1, 2, 3, ... modulo 2^32 in wire order.

* `c22_ids_consecutive` (Sending.lean) — PCQ
* `c22_ids_distinct` (Sending.lean) — PCQ

### C23 — Splitting a large message is lossless (partial)

Proved for every message whose cached size is right (see C17): the whole wire is a concatenation of whole deliveries. A message with a stale size is cut without a last frame (witness).

* `c23_wire_is_whole_deliveries` (Sending.lean) — PCQ
* `c23_split_lossless` (Sending.lean) — PCQ
* `c23_parts_bounded` (Sending.lean) — PCQ
* `c23_stale_size_never_ends` (Sending.lean) — PCQ

### C24 — Transfer frames fit the peer's max-frame-size (partial)

Proved for announced limits above 2048 and tags of at most 1996 bytes. At or below 2048 false (witness at 512).

* `c24_frame_fits_partial` (Sending.lean) — PCQ
* `c24_sent_frames_fit_partial` (Sending.lean) — PCQ
* `c24_small_limit_exceeded` (Sending.lean) — PCQ

### C25 — The session respects the peer's incoming window (partial)

Proved counting deliveries, and counting frames when no message is split. False counting frames (witness); a shrunk window and an absent next-incoming-id wrap to almost 2^32 (witnesses).

* `c25_deliveries_within_window` (Sending.lean) — PCQ
* `c25_total_sent_partial` (Sending.lean) — PCQ
* `c25_frames_within_window_partial` (Sending.lean) — PCQ
* `c25_split_delivery_overruns` (Sending.lean) — PCQ
* `c25_shrunk_window_wraps` (Sending.lean) — PCQ
* `c25_absent_id_wraps` (Sending.lean) — PCQ

### C26 — Blocked senders are all released and none is lost (partial)

Every execution: every send is queued, woken, failed for a reason, sent or cancelled; flows, detach and failure release; woken sends recheck. False for sends on a link this side closes (stranded for ever, witness) and for window-blocked sends of a detached link (witness).

* `c26_blocked_is_queued` (Blocked.lean) — PCQ
* `c26_every_send_accounted` (Blocked.lean) — PCQ
* `c26_flow_wakes_window` (Blocked.lean) — PCQ
* `c26_flow_wakes_link` (Blocked.lean) — PCQ
* `c26_detach_releases` (Blocked.lean) — PCQ
* `c26_failure_releases_partial` (Blocked.lean) — PCQ
* `c26_rechecks_credit` (Blocked.lean) — PCQ
* `c26_rechecks_window` (Blocked.lean) — PCQ
* `c26_close_strands_senders` (Blocked.lean) — PCQ
* `c26_detach_misses_window` (Blocked.lean) — PCQ

### C27 — A disposition settles exactly the deliveries in its range (partial)

Proved for ranges with first <= last (and absent last): exactly the covered records of the right direction, exactly their waiters. Ranges that wrap past 2^32-1 are ignored (witness).

* `c27_disposition_step` (Deliveries.lean) — PCQ
* `c27_records_partial` (Deliveries.lean) — PCQ
* `c27_waiters_partial` (Deliveries.lean) — PCQ
* `c27_nothing_else` (Deliveries.lean) — P
* `c27_wrapping_range_ignored` (Deliveries.lean) — PCQ

### C28 — A received delivery is settled at most once (proved)

Every execution: at most one settled disposition per delivery object, with the outcome of the first settle; drop without settling posts one rejection.

* `c28_settled_once` (Deliveries.lean) — PCQ
* `c28_first_settlement_stays` (Deliveries.lean) — PCQ
* `c28_first_settle_wins` (Deliveries.lean) — PCQ
* `c28_dispositions_on_wire` (Deliveries.lean) — PCQ
* `c28_drop_rejects` (Deliveries.lean) — PCQ
* `c28_settled_is_final` (Deliveries.lean) — PCQ

### C29 — The outcome reported to a sender is the receiver's (partial)

Proved for the last wait on a delivery, before ids wrap; blocked waits are connected to a silent record, dispositions and failures release them. An earlier of two waits fails with ConnectionDropped (witness).

* `c29_outcome_partial` (Deliveries.lean) — PCQ
* `c29_outcome_many_waits` (Deliveries.lean) — PCQ
* `c29_blocked_is_connected` (Deliveries.lean) — PCQ
* `c29_disposition_releases` (Deliveries.lean) — PCQ
* `c29_failure_releases` (Deliveries.lean) — PCQ
* `c29_released_finishes` (Deliveries.lean) — PCQ
* `c29_settled_resolves` (Deliveries.lean) — PCQ
* `c29_second_wait_breaks_first` (Deliveries.lean) — PCQ

### C30 — A receiver never accepts more than the credit it granted (proved)

Every execution: frames are taken in only while credit is left, so never more deliveries than granted (grants below 2^32 in total); a transfer without credit closes the link with transfer-limit-exceeded and nothing of it is ever handed over. The refusal theorem assumes the link is not already closed.

* `c30_guarded` (Receiving.lean) — PCQ
* `c30_never_exceeds` (Receiving.lean) — PCQ
* `c30_no_credit` (Receiving.lean) — PCQ

### C31 — Multi-frame deliveries are reassembled exactly (proved)

Every execution and every interleaving of reads: what the application took is a prefix of the messages assembled from the frames, each object once; any split of a message completes with exactly its payload and one unit of credit; complete messages are returned by the next read. The aborted flag is ignored (witness).

* `c31_in_order` (Receiving.lean) — PCQ
* `c31_taken_once` (Receiving.lean) — PCQ
* `c31_take_next` (Receiving.lean) — PCQ
* `c31_recv_next` (Receiving.lean) — PCQ
* `c31_nothing_early` (Receiving.lean) — PCQ
* `c31_any_split` (Receiving.lean) — PCQ
* `c31_aborted_is_delivered` (Receiving.lean) — PCQ

### C32 — The receiver bounds reassembled messages (partial)

Proved for every split in which a frame after the first carries a body: link closed with message-size-exceeded, message never handed over. The size of the first frame is not checked (witness).

* `c32_over_limit` (Receiving.lean) — PCQ
* `c32_any_split_partial` (Receiving.lean) — PCQ
* `c32_first_frame_unchecked` (Receiving.lean) — PCQ

### C33 — Frames reach the link they were addressed to (partial)

A transfer on a never-attached handle is refused and changes nothing; transfers, flows and detaches touch only the slot and link their handle names; entries persist. Violated: stale table entries of refused links, unknown handles taken for slot numbers, stale names and late acceptance make frames reach other links (witnesses).

* `c33_unattached` (Routing.lean) — PCQ
* `c33_transfer` (Routing.lean) — PCQ
* `c33_flow` (Routing.lean) — PCQ
* `c33_flow_applied` (Routing.lean) — PCQ
* `c33_detach_partial` (Routing.lean) — PCQ
* `c33_kept_receiver_partial` (Routing.lean) — PCQ
* `c33_kept_sender_partial` (Routing.lean) — PCQ
* `c33_refused_detaches_other` (Routing.lean) — PCQ
* `c33_refused_transfer` (Routing.lean) — PCQ
* `c33_unknown_detaches_other` (Routing.lean) — PCQ
* `c33_stale_name` (Routing.lean) — PCQ
* `c33_late_accept` (Routing.lean) — PCQ

### C34 — Detaching a link fails exactly its outstanding deliveries (partial)

A detach fails exactly the records carrying the link's handle, notifies exactly their waiters, who then get the error, and fails sends queued for credit. Violated: sends queued for the window are matched by the wrong handle, deliveries of a locally closed link stay pending and are inherited by the next link in the slot (witnesses).

* `c34_sender_partial` (Detaching.lean) — PCQ
* `c34_receiver` (Detaching.lean) — PCQ
* `c34_wait_fails` (Detaching.lean) — PCQ
* `c34_queued_fail` (Detaching.lean) — PCQ
* `c34_other_send` (Detaching.lean) — PCQ
* `c34_closed_waits` (Detaching.lean) — PCQ
* `c34_inherits` (Detaching.lean) — PCQ

### C35 — Each frame is routed to its channel's session; channels are not shared (partial)

Frames change only the session spoken to on their channel (by the history of Begin and End), it is given them unless its slab entry was asked to be closed, unknown channels are refused, local channels are distinct below 65536. Violated: a repeated Begin shares a remote channel, 65537 Begins share a local one, ending a session marks another as closing (remote channel used as slab index) and then sends End twice.

* `c35_remote_channel_shared` (ConnectionWitnesses.lean) — PCQ
* `c35_local_channel_shared` (ConnectionWitnesses.lean) — PCQ
* `c35_end_closes_another` (ConnectionWitnesses.lean) — PCQ
* `c35_end_sent_twice` (ConnectionWitnesses.lean) — PCQ
* `c35_sessions_reachable` (Connections.lean) — PCQ
* `c35_only_its_session` (Connections.lean) — PCQ
* `c35_unknown_refused` (Connections.lean) — PCQ
* `c35_given_partial` (Connections.lean) — PCQ
* `c35_one_channel` (Connections.lean) — PCQ
* `c35_begin_answered` (Connections.lean) — PCQ
* `c35_begin_completes` (Connections.lean) — PCQ
* `c35_local_distinct_partial` (Connections.lean) — PCQ

### C36 — The number of local sessions respects the negotiated channel-max (partial)

Own Begins go out below the local channel-max, else TooManyChannels. Violated as stated: the peer's channel-max is never looked at.

* `c36_peer_limit_ignored` (ConnectionWitnesses.lean) — PCQ
* `c36_peer_limit_unused` (ConnectionWitnesses.lean) — none
* `c36_own_limit_partial` (Connections.lean) — PCQ
* `c36_too_many` (Connections.lean) — PCQ
* `c36_begins` (Connections.lean) — PCQ

### C37 — A connection error is sticky and reaches everyone (partial)

First error kept (connection and session), every established session told: error on the session and its sender links, no send or wait blocked; session frames ignored and open_session refused afterwards. Violated: Begin after failure is obeyed, sessions being ended are not told, receiver links close without the error, sessions being opened report Disconnected.

* `c37_begin_after_failure` (ConnectionWitnesses.lean) — PCQ
* `c37_closing_not_told` (ConnectionWitnesses.lean) — PCQ
* `c37_receiver_not_told` (ConnectionWitnesses.lean) — PCQ
* `c37_opening_other_error` (ConnectionWitnesses.lean) — PCQ
* `c37_first_error_kept` (Connections.lean) — PCQ
* `c37_fails` (Connections.lean) — PCQ
* `c37_established_told_partial` (Connections.lean) — PCQ
* `c37_close_told_partial` (Connections.lean) — PCQ
* `c37_session_error_kept` (Connections.lean) — PCQ
* `c37_frames_ignored_partial` (Connections.lean) — PCQ
* `c37_open_refused` (Connections.lean) — PCQ

### C38 — The client opens AMQP only after SASL success (partial)

Every run, on every byte stream in any chunks, with disconnects and timeouts: nothing of AMQP is sent before an outcome with code ok; an unexpected item is the last event and fails the attempt; a connection only by the whole conversation; a conforming server gets one. Violated: the frame in the place of the mechanisms is not looked at, so even a refusal there does not abort, and the credentials are sent whatever was offered (witnesses).

* `c38_amqp_only_after_ok` (Handshake.lean) — PCQ
* `c38_unexpected_aborts_partial` (Handshake.lean) — PCQ
* `c38_success_only_by_the_book_partial` (Handshake.lean) — PCQ
* `c38_conforming_server_accepted` (Handshake.lean) — PCQ
* `c38_credentials_for_any_frame` (HandshakeWitnesses.lean) — PCQ
* `c38_refusal_ignored` (HandshakeWitnesses.lean) — PCQ

### C39 — A server handshake only reaches the open connection through the specified steps (partial)

Every run and every service: only AMQP and SASL headers, init before outcome, unexpected items end the handshake, an open only at the end of one of three conversations, each with a fresh AMQP header. A non-ok outcome is not opened if the service itself stops. Violated: any code yields a success token and the connection opens (witness); after a challenge one more SASL frame is awaited, so a conforming client's AMQP header is swallowed and the handshake stalls (proved for every service and client).

* `c39_only_amqp_or_sasl` (Handshake.lean) — PCQ
* `c39_init_before_outcome` (Handshake.lean) — PCQ
* `c39_unexpected_aborts` (Handshake.lean) — PCQ
* `c39_only_by_the_book` (Handshake.lean) — PCQ
* `c39_open_ends_the_path` (Handshake.lean) — PCQ
* `c39_not_ok_not_opened_partial` (Handshake.lean) — PCQ
* `c39_refused_but_opened` (HandshakeWitnesses.lean) — PCQ
* `c39_not_ok_not_opened_fails` (HandshakeWitnesses.lean) — PCQ
* `c39_challenge_stalls` (HandshakeWitnesses.lean) — PCQ

### C40 — Control events are delivered in order, exactly once (proved)

Queued = handed ++ still queued, in every reachable state; poll hands all. Control frames made from the peer's frames are called directly and overtake queued ones (c40_direct_overtakes).

* `c40_direct_overtakes` (ConnectionWitnesses.lean) — PCQ
* `c40_in_order_once` (Connections.lean) — PCQ
* `c40_poll_hands_all` (Connections.lean) — PCQ

### C41 — Outcome mapping is faithful (proved)

For every reachable router state: what is sent about a message whose handler is done is exactly one settled disposition with the state of the outcome, under the peer's delivery id, or nothing if the message came settled; what is sent about any other message taken is nothing or the rejection of a dropped delivery.

* `c41_outcome` (Router.lean) — PCQ
* `c41_nothing_else` (Router.lean) — PCQ

### C42 — The router dispatches only to the link's own handler (partial)

The order of the router's events is proved without exception (handler only for an offered link, from the factory its address is routed to; message only taken from a link with a handler and only given to that handler, once). Unmatched links never get a handler; that they are detached is proved when the link still waits for the answer. Violated: a message taken before the peer's detach is given to the released handler after it; the handler of a link the application closes is never released.

* `c42_in_order` (Router.lean) — PCQ
* `c42_genuine` (Router.lean) — PCQ
* `c42_unmatched` (Router.lean) — PCQ
* `c42_refused_partial` (Router.lean) — PCQ
* `c42_dispatch_after_detach` (Router.lean) — PCQ
* `c42_closed_link_keeps_handler` (Router.lean) — PCQ

### C43 — Link credit is replenished and tracked exactly (partial)

Visible credit equals grants less completed deliveries; the delivery-count grows by completed deliveries only. Announced exactly when no credit was left. False otherwise: only the increment is announced (witness); for links attached by the application the count ignores the peer's initial-delivery-count (witness).

* `c43_credit` (Receiving.lean) — PCQ
* `c43_exact` (Receiving.lean) — PCQ
* `c43_count` (Receiving.lean) — PCQ
* `c43_remote_count` (Receiving.lean) — PCQ
* `c43_local_count_wrong` (Receiving.lean) — PCQ
* `c43_announced_partial` (Receiving.lean) — PCQ
* `c43_increment_announced` (Receiving.lean) — PCQ

### C44 — Encoded values are unambiguous (proved)

All Wire types; sequences of values parse uniquely.

* `c44_unambiguous` (Codec.lean) — PCQ
* `c44_uniquely_parsable` (Codec.lean) — PCQ
* `c44_protocol_uniquely_parsable` (Codec.lean) — PCQ

### C45 — Definitive decode errors are final (proved)

All Wire types: a definitive decode error is not undone by more bytes.

* `c45_errors_are_final` (Codec.lean) — PCQ
* `c45_protocol_errors_are_final` (Codec.lean) — PCQ

### C46 — Nothing is said about a delivery after the receiver settled it (partial)

Proved once wait has noticed the settlement. False otherwise: accepted, reported by wait, and then rejected by drop (witness).

* `c46_no_disposition_after_settlement_partial` (Deliveries.lean) — PCQ
* `c46_accepted_then_rejected` (Deliveries.lean) — PCQ

### C47 — Waiting on a delivery the receiver has settled resolves (partial)

Proved when a state was reported. False for settlement without a state, and for a second wait after modified (witnesses).

* `c47_late_wait_answers_partial` (Deliveries.lean) — PCQ
* `c47_settled_without_state_blocks` (Deliveries.lean) — PCQ
* `c47_modified_reported_once` (Deliveries.lean) — PCQ

### C48 — Sends on a link go out in the order they were made (partial)

Proved: a new send queues behind those queued. False: it overtakes sends woken but not polled (witness).

* `c48_queues_behind_partial` (Blocked.lean) — PCQ
* `c48_new_send_overtakes` (Blocked.lean) — PCQ

### C49 — A client and a server of this library agree at the end of the handshake (proved)

Every configuration whose frames are well-formed and fit the client's frame limit, every accepting service, every chunking in both directions. States about runs in which everything sent has arrived.

* `c49_both_open` (HandshakeDuplex.lean) — PCQ

### C50 — Every standard encoding of a value is understood (partial)

Every encoding the AMQP specification defines, in every width a peer may choose (relation form/Tree in Spec/Standard.lean, written without the encoder or decoder), for every primitive, descriptor and value tree of any depth. False for timestamps within a second before the epoch or on a whole second before it (c50_timestamps_not_accepted) and for the descriptor 0 in its shortest form (c50_zero_descriptor_not_accepted); Tree excludes those.

* `c50_primitives_accepted` (Standard.lean) — PCQ
* `c50_values_accepted` (Standard.lean) — PCQ
* `c50_timestamps_not_accepted` (Standard.lean) — P
* `c50_zero_descriptor_not_accepted` (Standard.lean) — PQ

### C51 — Everything written is a standard encoding (proved)

Every well-formed value tree and primitive is written in one of the standard forms. Symbols must be ASCII, as the specification requires and the code does not check.

* `c51_values_standard` (Standard.lean) — PCQ
* `c51_primitives_standard` (Standard.lean) — PCQ

### C52 — Nothing but standard encodings is accepted (partial)

Exact for 14 primitive types, and text is accepted iff it is the UTF-8 of a character sequence. False for booleans (0x56 followed by 2 is true) and symbols (non-ASCII accepted); what is accepted instead is stated exactly.

* `c52_text_is_utf8` (Standard.lean) — PCQ
* `c52_only_standard_partial` (Standard.lean) — PCQ
* `c52_booleans_partial` (Standard.lean) — P
* `c52_symbols_partial` (Standard.lean) — PCQ
* `c52_boolean_two_accepted` (Standard.lean) — P
* `c52_symbol_not_ascii_accepted` (Standard.lean) — PCQ

### C53 — Flow frames state the session's position truthfully (partial)

Counters, link named, echo behaviour proved for every execution. The next-incoming-id is proved to be the one the peer stated last (c53_incoming_partial); that it counts the transfers received is false (c53_incoming_stale: session.rs:847 discards the increment) and it is omitted from echo answers of remote-begun sessions (c53_incoming_missing).

* `c53_counters` (Flows.lean) — PCQ
* `c53_link` (Flows.lean) — PCQ
* `c53_incoming_partial` (Flows.lean) — PCQ
* `c53_incoming_stale` (Flows.lean) — PCQ
* `c53_incoming_missing` (Flows.lean) — PCQ
* `c53_echo` (Flows.lean) — PCQ
* `c53_echo_link` (Flows.lean) — PCQ

### C54 — The control service is told of what the peer did, and only that (partial)

Every call about the peer is for a frame the peer sent; the calls for detaches and ends carry their contents, except that the error of a receiver detach is withheld (c54_error_withheld, session.rs handle_detach takes it first).

* `c54_only_peer` (Notices.lean) — PCQ
* `c54_told_sender` (Notices.lean) — PCQ
* `c54_told_receiver_partial` (Notices.lean) — PCQ
* `c54_error_withheld` (Notices.lean) — PCQ
* `c54_told_end` (Notices.lean) — PCQ
* `c54_told_local_end` (Notices.lean) — PCQ

### C55 — Every standard encoding of a performative, frame or stream is read (partial)

Proved for every composite type, performative, frame header and stream against tables written from the specification. Filters with described values are refused (c55_filters_not_read, a violation); some dates before 1970 are not read (c50_timestamps_not_accepted).

* `c55_types_read` (StandardTypes.lean) — PCQ
* `c55_performatives_read` (StandardTypes.lean) — PCQ
* `c55_header_exact` (StandardTypes.lean) — PCQ
* `c55_amqp_stream` (StandardTypes.lean) — PCQ
* `c55_sasl_stream` (StandardTypes.lean) — PCQ
* `c55_filters_not_read` (StandardTypes.lean) — PCQ

### C56 — A reply carries the request's id (proved)

The reply carries the request's message-id as correlation-id, also end to end through encoding and decoding.

* `c56_reply` (StandardMessages.lean) — P
* `c56_reply_reaches_requester` (StandardMessages.lean) — PCQ

### C57 — Every standard encoding of a message is read (proved)

Every standard encoding of a message (sections in order, descriptors numeric or symbolic, any form of each value) decodes to the sections it denotes; times restricted as in C55.

* `c57_messages_read` (StandardMessages.lean) — PCQ

### C58 — The peer cannot crash a session (partial)

Violated: the peer makes the session panic by ending or detaching before the control service accepts its link; counters overflow. Proved: no frame by itself panics, and exactly which steps panic or overflow.

* `c58_peer` (Crash.lean) — PCQ
* `c58_panic` (Crash.lean) — PCQ
* `c58_end_then_accept` (Crash.lean) — PCQ
* `c58_detach_then_accept` (Crash.lean) — PCQ
* `c58_fail_then_accept` (Crash.lean) — PCQ
* `c58_detach_opening` (Crash.lean) — PCQ
* `c58_overflow` (Crash.lean) — PCQ
* `c58_grant` (Crash.lean) — PCQ
* `c58_count_overflows` (Crash.lean) — PCQ
* `c58_credit_overflows` (Crash.lean) — PCQ

### C59 — The limits exchanged in the opens are the limits observed (partial)

Client: announced limits are the configured ones, kept on the connection made by the handshake (channels begun below channel-max, transfer frames within the peer's max-frame-size), and the decoder's limit is the one announced. Server: the same, but its decoder uses max_size instead of what was announced (witnesses).

* `c59_client_partial` (Limits.lean) — PCQ
* `c59_server_partial` (Limits.lean) — PCQ
* `c59_server_limit_differs` (Limits.lean) — PCQ
* `c59_server_no_limit` (Limits.lean) — PCQ

### C61 — A receiver link is used only when both services accepted it (partial)

Proved for executions in which no link being attached loses its slot (conditions stated in Spec/Accepting.lean): nothing is taken in before both services accepted, in that order; refused links never take in anything; accepted ones are established. That the control service is asked first holds in every execution. False otherwise, also by the peer's frames alone (witnesses).

* `c61_control_first` (Accept.lean) — PCQ
* `c61_waiting_partial` (Accept.lean) — PCQ
* `c61_accepted_partial` (Accept.lean) — PCQ
* `c61_refused_partial` (Accept.lean) — PCQ
* `c61_established_partial` (Accept.lean) — PCQ
* `c61_unaccepted_used` (Accept.lean) — PCQ
* `c61_unaccepted_used_by_peer` (Accept.lean) — PCQ

### C60 — The router serves the links it has handlers for (partial)

Every state: when a handler is about to be given a message on a link without credit, exactly 50 units are granted and announced. Orderly executions: every complete message reaches the handler in order, is answered once, and the link has credit when the router is idle. Missing: executions in which the connection closes, a handler service is not ready, a call is dropped, the application takes messages itself, or a link loses its slot while being attached.

* `c60_renewed` (RouterServe.lean) — PCQ
* `c60_served_partial` (RouterServe.lean) — PCQ
* `c60_not_starved_partial` (RouterServe.lean) — PCQ
* `c60_answered_partial` (RouterServe.lean) — PCQ

### C62 — Two connected sessions of the library pass messages on unchanged (proved)

for any two fresh sessions of the library, joined by a transport that keeps each direction in order; frames on arrival as by C07

* `c62_frames_in_order` (Pair.lean) — PCQ
* `c62_messages_in_order` (Pair.lean) — PCQ
* `c62_nothing_missing` (Pair.lean) — PCQ

### C63 — Between two endpoints of the library no message is refused for lack of credit (partial)

credit granted while some is left is announced as if there were none: with messages on their way the sender believes it has 2^32-1 units, and the receiver refuses what was sent (c63_early_grant_refused). Proved for receivers that grant only when nothing is left, over any execution in which the link stays open, both ends begin to count at the same number, the messages fit the receiver's limit and the sender's flow frames take effect in order (C71 has when the dispatcher does not see to that)

* `c63_credit_suffices_partial` (Pair.lean) — PCQ
* `c63_next_frame_taken_partial` (Pair.lean) — PCQ
* `c63_never_refused_partial` (Pair.lean) — PCQ
* `c63_early_grant_refused` (Pair.lean) — PCQ

### C64 — Links are attached under the handles, roles and limits the two ends announce (partial)

proved: the frames, handles and link parameters of every way a link is attached, accepted or refused; c64_refused_sender_partial leaves out the role. Violated: role of a refusal, roles not checked, names and addresses share one map, both directions share one name, no initial delivery-count from the sender builder, the announced limit of a local receiver is not enforced, a limit of 0 is taken literally

* `c64_local_sender` (Attach.lean) — PCQ
* `c64_local_receiver` (Attach.lean) — PCQ
* `c64_answered_sender` (Attach.lean) — PCQ
* `c64_answered_receiver` (Attach.lean) — PCQ
* `c64_asked_sender` (Attach.lean) — PCQ
* `c64_asked_receiver` (Attach.lean) — PCQ
* `c64_accepted_sender` (Attach.lean) — PCQ
* `c64_answer_sender` (Attach.lean) — PCQ
* `c64_refused_sender_partial` (Attach.lean) — PCQ
* `c64_accepted_receiver_control` (Attach.lean) — PCQ
* `c64_accepted_receiver` (Attach.lean) — PCQ
* `c64_answer_receiver` (Attach.lean) — PCQ
* `c64_refused_receiver` (Attach.lean) — PCQ
* `c64_sender_parameters` (Attach.lean) — PCQ
* `c64_builders` (Attach.lean) — none
* `c64_builder_defaults` (Attach.lean) — P
* `c64_refusal_has_peers_role` (Attach.lean) — PCQ
* `c64_attach_ignored` (Attach.lean) — PCQ
* `c64_role_not_checked` (Attach.lean) — PCQ
* `c64_both_directions` (Attach.lean) — PCQ
* `c64_builder_no_count` (Attach.lean) — PCQ
* `c64_announced_limit` (Attach.lean) — PCQ
* `c64_announced_limit_exceeded` (Attach.lean) — PCQ
* `c64_zero_limit` (Attach.lean) — PCQ

### C65 — Closing and detaching a link follow the detach handshake (partial)

every case in which a link is closed, detached, confirmed or detached by the peer is proved exactly. Violated: the answer to a detach always closes (c65_always_closes); closing a link not answered yet never completes (c65_opening_never_closed); the peer's detach of a link still being offered is not answered (c65_detach_unanswered)

* `c65_close_sender` (Closing.lean) — PCQ
* `c65_detach_sender` (Closing.lean) — PCQ
* `c65_close_receiver` (Closing.lean) — PCQ
* `c65_detach_receiver` (Closing.lean) — PCQ
* `c65_close_twice` (Closing.lean) — PCQ
* `c65_confirmed` (Closing.lean) — PCQ
* `c65_peer_detaches_sender` (Closing.lean) — PCQ
* `c65_peer_detaches_receiver` (Closing.lean) — PCQ
* `c65_always_closes` (Closing.lean) — PCQ
* `c65_opening_never_closed` (Closing.lean) — PCQ
* `c65_detach_unanswered` (Closing.lean) — PCQ

### C66 — Frames about a link are sent only while the link is attached (partial)

Proved for every execution (with slot numbers below 2^32 and a control service that leaves the handle alone): a detach goes out only for a handle that was attached and not detached since; established and offered links are attached under their slot number; only send and its resumption post transfers, under the handle of the link, which is attached unless the link has been closed. Violated, with witnesses: a send that waits for the session window transfers after either side's detach; credit granted after close or before the attach is announced; a late acceptance attaches a second link under a handle in use.

* `c66_detach` (Lifetime.lean) — PCQ
* `c66_slot` (Lifetime.lean) — PCQ
* `c66_transfer_partial` (Lifetime.lean) — PCQ
* `c66_transfer_after_close` (Lifetime.lean) — PCQ
* `c66_transfer_after_detach` (Lifetime.lean) — PCQ
* `c66_flow_after_close` (Lifetime.lean) — PCQ
* `c66_flow_before_attach` (Lifetime.lean) — PCQ
* `c66_attached_twice` (Lifetime.lean) — PCQ

### C67 — The peer hears from us within its idle timeout (partial)

Proved for every 32-bit timeout, every rounding of the f32 arithmetic within its error bound, and every sequence of polls: pings are due at most every second and every three eighths of the peer's timeout, never more often than every half second, and a prompt dispatcher leaves no gap of more than half the timeout. False for timeouts of 1 to 1333 ms: never pinged (c67_short_timeouts). The timers and wake-ups of the runtime are a hypothesis (Prompt); the library's own announced timeout is not enforced by it and not part of the claim.

* `c67_interval` (KeepAlive.lean) — PCQ
* `c67_pinged` (KeepAlive.lean) — PCQ
* `c67_heard_partial` (KeepAlive.lean) — PCQ
* `c67_not_too_often` (KeepAlive.lean) — PCQ
* `c67_short_timeouts` (KeepAlive.lean) — PCQ
* `c67_none` (KeepAlive.lean) — PCQ
* `c67_ping_bytes` (KeepAlive.lean) — PCQ
* `c67_ping_ignored` (KeepAlive.lean) — PCQ

### C68 — The outcome the sender hears is the one the receiving side gave (proved)

Two sessions of the model connected by an in-order transport (Model/Pair). Delivery ids are taken not to have wrapped around on the sending side (fewer than 2^32 deliveries).

* `c68_outcome` (Outcome.lean) — PCQ
* `c68_same_message` (Outcome.lean) — PCQ
* `c68_reaches_sender` (Outcome.lean) — PCQ
* `c68_all_told` (Outcome.lean) — PCQ

### C69 — Decoding takes memory in proportion to the bytes received (partial)

The bound on decoded values is proved for every value, frame, message and stream. It fails for typed arrays of zero-width elements (c69_hollow_array), for the capacity set aside before elements are read (c69_reserve_unbounded) and the recursion is limited by the frame size only (c69_deep). Bytes of memory per unit, allocator and stack are not modelled.

* `c69_value` (Memory.lean) — PCQ
* `c69_depth` (Memory.lean) — PCQ
* `c69_properties` (Memory.lean) — PCQ
* `c69_unsettled` (Memory.lean) — PCQ
* `c69_annotations` (Memory.lean) — PCQ
* `c69_application_properties` (Memory.lean) — PCQ
* `c69_sequence` (Memory.lean) — PCQ
* `c69_capabilities` (Memory.lean) — PCQ
* `c69_frame` (Memory.lean) — PCQ
* `c69_sasl` (Memory.lean) — PCQ
* `c69_message` (Memory.lean) — PCQ
* `c69_stream_frame` (Memory.lean) — PCQ
* `c69_stream_total` (Memory.lean) — PCQ
* `c69_reserve_list` (Memory.lean) — PCQ
* `c69_hollow_array` (Memory.lean) — PCQ
* `c69_reserve_unbounded` (Memory.lean) — PCQ
* `c69_deep` (Memory.lean) — PCQ

### C70 — Two connections of the library keep their sessions apart (proved)

For executions in which no connection has failed, no session was ended and at most 2^16 sessions were begun on each side; C37 has what goes wrong with channels after a session was ended. The two connections exchange frames as the codec delivers them (C07, C22).

* `c70_refines` (Net.lean) — PCQ
* `c70_partner` (Net.lean) — PCQ
* `c70_one_partner` (Net.lean) — PCQ
* `c70_no_refusal` (Net.lean) — PCQ
* `c70_answered` (Net.lean) — PCQ
* `c70_frames_in_order` (Net.lean) — PCQ
* `c70_messages_in_order` (Net.lean) — PCQ
* `c70_nothing_missing` (Net.lean) — PCQ

### C71 — Each call of the control service is answered once, about the frame it was made for, and in order (partial)

answers take effect out of the order of the calls when three or more are outstanding (c71_out_of_order), and a link may be left with the credit of an older flow frame (c71_stale_credit). Order is proved for at most two calls at a time; that each call is answered once, acts on the frame it was about and none is lost is proved for every execution

* `c71_is_connection` (Dispatcher.lean) — PCQ
* `c71_each_once` (Dispatcher.lean) — PCQ
* `c71_right_frame` (Dispatcher.lean) — PCQ
* `c71_none_missing` (Dispatcher.lean) — PCQ
* `c71_poll` (Dispatcher.lean) — PCQ
* `c71_in_order_partial` (Dispatcher.lean) — PCQ
* `c71_out_of_order` (Dispatcher.lean) — PCQ
* `c71_stale_credit` (Dispatcher.lean) — PCQ

### C72 — Everything that is written is standard (partial)

every composite type, AMQP frame and SASL frame is covered without exception; messages are covered when their body is of one kind. A body mixing kinds is written as it is (c72_mixed_body). Symbols must be ASCII and raw described data standard, which the Rust types do not enforce. A body without any section counts as one without data sections.

* `c72_types_written` (StandardWritten.lean) — PCQ
* `c72_frames_written` (StandardWritten.lean) — PCQ
* `c72_sasl_frames_written` (StandardWritten.lean) — PCQ
* `c72_messages_written_partial` (StandardWritten.lean) — PCQ
* `c72_mixed_body` (StandardWritten.lean) — PCQ

### C73 — Whatever is posted can be read (partial)

every frame is read back when the reader admits its size; transfers are within a limit above 2048 by themselves, the other frames are sent whatever their size (c73_attach_over_limit, violated). Values given by the application must be well formed (less than 2^28 bytes each), message sizes honest (C17) and tags at most 1996 bytes. Frames of the handshake are C33-C36, not here.

* `c73_frame_read_back` (Posted.lean) — PCQ
* `c73_connection_read_back` (Posted.lean) — PCQ
* `c73_within_limit_partial` (Posted.lean) — PCQ
* `c73_two_connections` (Posted.lean) — PCQ
* `c73_attach_over_limit` (Posted.lean) — PCQ

### C74 — An application's error reaches the peer as the application meant it (partial)

every way of making an error with the API and every error value is covered; of the 28 constants all but ERRANT_LINK, which is misspelt in the code (c74_errant_link, violated). The conversions of the application's own error types are its own.

* `c74_error_made` (Errors.lean) — PQ
* `c74_shorthands` (Errors.lean) — none
* `c74_error_arrives` (Errors.lean) — PCQ
* `c74_codes_partial` (Errors.lean) — PCQ
* `c74_errant_link` (Errors.lean) — PCQ

### C75 — Connections over a byte stream behave as connections that exchange frames (proved)

holds as long as the frames are ones the other codec accepts: messages with honest sizes (C16), no frame above the codec's limit (C73, C24), which is asked of the state reached. The handshake before the first frame is Model/Handshake.

* `c75_refines` (Stream.lean) — PCQ
* `c75_no_error` (Stream.lean) — PCQ
* `c75_all_arrived` (Stream.lean) — PCQ
* `c75_no_refusal` (Stream.lean) — PCQ
* `c75_messages_in_order` (Stream.lean) — PCQ
* `c75_nothing_missing` (Stream.lean) — PCQ

### C76 — A client and a server, from the first byte of the handshake on (proved)

for clients and servers that accept each other (Meet); refusals are C38, C39, C44 and C49. The rest as for C75.

* `c76_refines` (EndToEnd.lean) — PCQ
* `c76_both_up` (EndToEnd.lean) — PCQ
* `c76_drained` (EndToEnd.lean) — PCQ
* `c76_no_refusal` (EndToEnd.lean) — PCQ
* `c76_to_server` (EndToEnd.lean) — PCQ
* `c76_nothing_missing` (EndToEnd.lean) — PCQ

### C77 — How a connection is closed (partial)

missing: one Close at most, and one for each refusal; both are violated (c77_answered_twice, c77_refusal_untold). What ntex does with the transport after the dispatcher stops is not modelled.

* `c77_is_dispatcher` (Serve.lean) — PCQ
* `c77_peer_close_answered` (Serve.lean) — PCQ
* `c77_close_count` (Serve.lean) — PCQ
* `c77_error_reported` (Serve.lean) — PCQ
* `c77_ready_idle` (Serve.lean) — PCQ
* `c77_stopped_for_good` (Serve.lean) — PCQ
* `c77_answered_twice` (Serve.lean) — PCQ
* `c77_refusal_untold` (Serve.lean) — PCQ
* `c77_reason_withheld` (Serve.lean) — PCQ
* `c77_begin_after_close` (Serve.lean) — PCQ

### C78 — Control services that answer at once (partial)

the documentation of start_default says that any control message closes the connection; it does not (c78_default_accepts, violated). Missing: nothing else; the order is exact for services that answer everything at once.

* `c78_order` (Defaults.lean) — PCQ
* `c78_until_error` (Defaults.lean) — PCQ
* `c78_not_closed` (Defaults.lean) — PCQ
* `c78_default_accepts` (Defaults.lean) — PCQ

### C79 — Every request is answered exactly once (partial)

two ways an attach request is not answered about its own link are proved (c79_attach_after_end, c79_attach_displaced, violated). Missing: nothing else; after a panic only the upper bound is stated.

* `c79_each_once` (Requests.lean) — PCQ
* `c79_at_most_once` (Requests.lean) — PCQ
* `c79_numbered` (Requests.lean) — PCQ
* `c79_failure_answers` (Requests.lean) — PCQ
* `c79_open_session` (Requests.lean) — PCQ
* `c79_open_failure_answers` (Requests.lean) — PCQ
* `c79_attach_after_end` (Requests.lean) — PCQ
* `c79_attach_displaced` (Requests.lean) — PCQ

### C80 — The session window between two endpoints of the library (partial)

that a session in which messages go one way stops for good after 2^32-1 deliveries is proved (c80_stops, violated). Missing: nothing else; the statement is about two endpoints of this library.

* `c80_begins` (Window.lean) — none
* `c80_window` (Window.lean) — PCQ
* `c80_one_way` (Window.lean) — PCQ
* `c80_no_waiting` (Window.lean) — PCQ
* `c80_stops` (Window.lean) — PCQ

### C81 — A task that sleeps on a receiver link has nothing to read (partial)

that dropping a link from the table closes it without waking its reader, who then sleeps for ever, is proved (c81_detach_sleeps, c81_sleeps_for_ever, violated). Missing: the theorem is for links read by one task each (c81_two_readers shows why) and executions without such drops; wake-ups of senders and of on_close/on_credit are not part of it.

* `c81_same_session` (Wake.lean) — PCQ
* `c81_asleep_nothing_partial` (Wake.lean) — PCQ
* `c81_woken_partial` (Wake.lean) — PCQ
* `c81_detach_sleeps` (Wake.lean) — PCQ
* `c81_sleeps_for_ever` (Wake.lean) — PCQ
* `c81_two_readers` (Wake.lean) — PCQ

### C82 — A failed handshake says why it failed (partial)

a client that is sent another SASL frame where the outcome is due reports that it was disconnected (c82_client_misreports, violated); what the application's handshake service fails with is its own (Service.Declines). The texts of the errors are not modelled.

* `c82_server_says_why` (HandshakeWhy.lean) — PCQ
* `c82_server_names_item` (HandshakeWhy.lean) — PCQ
* `c82_client_says_why` (HandshakeWhy.lean) — PCQ
* `c82_client_names_item` (HandshakeWhy.lean) — PCQ
* `c82_plain_says_why` (HandshakeWhy.lean) — PCQ
* `c82_client_misreports` (HandshakeWhy.lean) — PCQ

### C83 — A server sets up a connection in order (partial)

that a failing service factory leaves the peer with an opened connection dropped without Close (c83_failure_untold, c83_open_then_dropped) and that the handshake timeout does not cover the services (c83_never_given_up) are proved (violated). The end of the transport while the services are made is not modelled.

* `c83_in_order` (Incoming.lean) — PCQ
* `c83_only_after_handshake` (Incoming.lean) — PCQ
* `c83_application_free` (Incoming.lean) — PCQ
* `c83_nothing_handled_before` (Incoming.lean) — PCQ
* `c83_refines` (Incoming.lean) — PCQ
* `c83_to_server` (Incoming.lean) — PCQ
* `c83_failure_untold` (Incoming.lean) — PCQ
* `c83_open_then_dropped` (Incoming.lean) — PCQ
* `c83_never_given_up` (Incoming.lean) — PCQ

### C84 — No control call is left unattended while the dispatcher sleeps (partial)

proved while the dispatcher has no error of its own; after a poll that ends with a protocol error, answered calls and the error itself wait with nobody to wake the task (c84_left_by_error, c84_answer_unheard: violated). Whether the framework polls readiness in the same run is not modelled.

* `c84_queue_empty` (Tending.lean) — PCQ
* `c84_none_answered_partial` (Tending.lean) — PCQ
* `c84_answer_wakes_partial` (Tending.lean) — PCQ
* `c84_call_wakes` (Tending.lean) — PCQ
* `c84_run_attends` (Tending.lean) — PCQ
* `c84_is_dispatcher` (Tending.lean) — PCQ
* `c84_left_by_error` (Tending.lean) — PCQ
* `c84_answer_unheard` (Tending.lean) — PCQ

### C85 — A task that waits for credit has none (partial)

that a task asleep in ready() has an open link without credit holds of every execution; that it is told when the link dies is proved for established links only: links the control service has not accepted are never closed, neither by a failure of the connection nor by a refusal (c85_unaccepted_sleeps, c85_refused_sleeps: violated).

* `c85_asleep` (Credit.lean) — PCQ
* `c85_woken` (Credit.lean) — PCQ
* `c85_answer` (Credit.lean) — PQ
* `c85_failure_partial` (Credit.lean) — PCQ
* `c85_same_session` (Credit.lean) — PCQ
* `c85_unaccepted_sleeps` (Credit.lean) — PCQ
* `c85_refused_sleeps` (Credit.lean) — PCQ

### C86 — What Session::end reports, and when (partial)

that the peer's End completes the future of Session::end, with what, and that the result stays, holds of every execution; that a failure of the connection completes it is proved for established sessions only: a session being ended is forgotten and its future is never completed, whatever happens afterwards (c86_forgotten: violated for all such sessions). A session lost with its connection reports success (c86_loss_is_success).

* `c86_over_iff_error` (EndSession.lean) — PCQ
* `c86_answered` (EndSession.lean) — PCQ
* `c86_waits` (EndSession.lean) — PCQ
* `c86_failed_partial` (EndSession.lean) — PCQ
* `c86_kept` (EndSession.lean) — PCQ
* `c86_forgotten` (EndSession.lean) — PCQ
* `c86_forgotten_witness` (EndSession.lean) — PCQ
* `c86_loss_is_success` (EndSession.lean) — PCQ

### C87 — What the application looks up is what it asked for (partial)

what is looked up under a local channel or a local handle is exact in every execution, as are get_error, on_close and is_opened. Violated: lookups by name and by the peer's handle may return another link (c87_wrong_name, c87_wrong_remote); close is not seen by those who watch the connection (c87_close_unseen). Lookup by name is proved at the moment the link is attached (c87_named_partial). Whether the transport is closed is a parameter.

* `c87_first_error` (Observe.lean) — PCQ
* `c87_on_close` (Observe.lean) — PCQ
* `c87_opened` (Observe.lean) — PCQ
* `c87_stays_closed` (Observe.lean) — PCQ
* `c87_session` (Observe.lean) — PCQ
* `c87_session_ending` (Observe.lean) — P
* `c87_ended_found` (Observe.lean) — PCQ
* `c87_session_failed` (Observe.lean) — PCQ
* `c87_close_unseen` (Observe.lean) — PCQ
* `c87_sender` (Observe.lean) — PCQ
* `c87_sender_found` (Observe.lean) — PCQ
* `c87_receiver` (Observe.lean) — PCQ
* `c87_named_partial` (Observe.lean) — PCQ
* `c87_wrong_name` (Observe.lean) — PCQ
* `c87_wrong_remote` (Observe.lean) — PCQ

### C88 — What is put into an AMQP value comes out of it (proved)

arrays, described compounds, as_long, as_ulong, as_str. Three edges are proved as violations: an array's surplus payload bytes are ignored (c88_array_excess), a described compound made from a simple value comes back as another kind of value (c88_described_simple), as_long withholds small ulongs (c88_withheld); the bytes in the documentation of DescribedCompound are malformed (c88_documented_bytes). The 32-bit item counter of Array::new is assumed not to overflow.

* `c88_array_back` (Values.lean) — P
* `c88_array_as_vec` (Values.lean) — PQ
* `c88_array_travels` (Values.lean) — PCQ
* `c88_vec_as_array` (Values.lean) — PCQ
* `c88_array_of_described` (Values.lean) — PCQ
* `c88_array_excess` (Values.lean) — P
* `c88_array_count` (Values.lean) — P
* `c88_described_back` (Values.lean) — P
* `c88_described_travels` (Values.lean) — PCQ
* `c88_described_list` (Values.lean) — PCQ
* `c88_documented_bytes` (Values.lean) — PCQ
* `c88_described_excess` (Values.lean) — P
* `c88_described_simple` (Values.lean) — PCQ
* `c88_long` (Values.lean) — PCQ
* `c88_ulong` (Values.lean) — P
* `c88_readable` (Values.lean) — PQ
* `c88_withheld` (Values.lean) — P
* `c88_text` (Values.lean) — P

### C89 — What is read from a message is what was put into it (partial)

lookups are exact for every history that changes properties by name, and unchanged by the wire; replies are exact. Violated: a property or annotation set again keeps its first value for every reader of this crate (c89_not_replaced, c89_annotation_not_replaced) and is sent twice in one map (c89_sent_twice); an empty message cannot be loaded by the receiver (c89_empty_not_loaded), so c89_load_partial excludes it; data() gives only the first data section (c89_data_first).

* `c89_property` (Reading.lean) — PCQ
* `c89_annotation` (Reading.lean) — PCQ
* `c89_set` (Reading.lean) — PCQ
* `c89_not_replaced` (Reading.lean) — PCQ
* `c89_annotation_not_replaced` (Reading.lean) — PCQ
* `c89_travels` (Reading.lean) — PCQ
* `c89_sent_twice` (Reading.lean) — PCQ
* `c89_reply` (Reading.lean) — none
* `c89_reply_travels` (Reading.lean) — PCQ
* `c89_body` (Reading.lean) — none
* `c89_data_first` (Reading.lean) — none
* `c89_load_partial` (Reading.lean) — PCQ
* `c89_empty_not_loaded` (Reading.lean) — PCQ

### C90 — A client presents the credentials it was given (partial)

proved for credentials without NUL, in every execution of the client's handshake. Violated without the condition, which the client does not check: c90_confused, c90_unreadable. That the server's mechanisms are not looked at is C38.

* `c90_one_reading` (Credentials.lean) — P
* `c90_presented` (Credentials.lean) — P
* `c90_told_apart` (Credentials.lean) — P
* `c90_confused` (Credentials.lean) — P
* `c90_unreadable` (Credentials.lean) — PCQ
* `c90_sent` (Credentials.lean) — PCQ
* `c90_none_sent` (Credentials.lean) — PCQ
* `c90_seen` (Credentials.lean) — PCQ

### C91 — The configuration is announced and understood (partial)

exact for all sequences of builder calls. Violated: an idle timeout of one second makes a peer of this library send nothing to keep the connection alive (c91_one_second); a maximum frame size below 512 is announced (c91_below_minimum).

* `c91_announced` (Config.lean) — PCQ
* `c91_understood` (Config.lean) — PCQ
* `c91_capabilities` (Config.lean) — PCQ
* `c91_pinged` (Config.lean) — PCQ
* `c91_one_second` (Config.lean) — PCQ
* `c91_below_minimum` (Config.lean) — none

### C92 — Lists of described items (partial)

round trip, exact size and plain reading for every suitable item type. Violated: a type whose encoding is no compound is written but not read back, though the trait Composite does not ask for one (c92_simple_refused, c92_not_back).

* `c92_back` (DescribedList.lean) — PCQ
* `c92_size` (DescribedList.lean) — PQ
* `c92_plain_reading` (DescribedList.lean) — PCQ
* `c92_other_descriptor` (DescribedList.lean) — PCQ
* `c92_only_described` (DescribedList.lean) — PQ
* `c92_accepted` (DescribedList.lean) — PCQ
* `c92_simple_refused` (DescribedList.lean) — PCQ
* `c92_not_back` (DescribedList.lean) — PCQ

### C93 — Comparing values with text and constructors with descriptors (proved)

for all values, texts, constructors and descriptors; text is compared byte by byte, as ByteString does.

* `c93_text` (Comparisons.lean) — P
* `c93_as_str` (Comparisons.lean) — P
* `c93_across` (Comparisons.lean) — PCQ
* `c93_two_values` (Comparisons.lean) — PCQ
* `c93_ensured` (Comparisons.lean) — P
* `c93_named` (Comparisons.lean) — none
* `c93_constructor_across` (Comparisons.lean) — PCQ

### C94 — Whom a failed connection is blamed on (partial)

for every execution of the client's handshake; Connect and Io, errors from below AMQP, are not modelled. Violated: a permanent system error of the server (sys-perm) is put down to the client (c94_sys_perm).

* `c94_client_blamed` (Diagnostics.lean) — PCQ
* `c94_plain_never` (Diagnostics.lean) — PCQ
* `c94_signature` (Diagnostics.lean) — PCQ
* `c94_told_apart` (Diagnostics.lean) — PCQ
* `c94_sys_perm` (Diagnostics.lean) — P

### C95 — The response to an attach is what the control service made of it (partial)

for all sequences of changes, before and after the answer. Not modelled: a closure that calls with again on the same wrapper, or panics. Violated: a service that keeps its control frame and calls with after it has answered panics (c95_after).

* `c95_before` (Wrapper.lean) — P
* `c95_taken` (Wrapper.lean) — P
* `c95_after` (Wrapper.lean) — P
* `c95_only_after` (Wrapper.lean) — P
