{
 "claims": [
  {
   "property": "C01",
   "status": "proved",
   "theorems": [
    "Amqp.c01_primitives_round_trip",
    "Amqp.c01_fixed_width_unconditional"
   ],
   "note": "For every value of each primitive type and every suffix. Strings and symbols must be valid UTF-8 shorter than 2^32 bytes; timestamps are C19."
  },
  {
   "property": "C02",
   "status": "partial",
   "theorems": [
    "Amqp.c02_variant_round_trip",
    "Amqp.c02_zero_descriptor_lost",
    "Amqp.c02_described_list_changes",
    "Amqp.c02_map_as_key_panics",
    "Amqp.c02_array_count_truncated",
    "Amqp.c02_unconditional_false",
    "Amqp.c02_collections_round_trip"
   ],
   "note": "Round trip for every well-formed value tree, by structural induction. Well-formedness excludes four shapes for which the round trip is proved false of the code, with witnesses: zero descriptors, described lists, maps used as map keys, arrays with more than 2^32 elements."
  },
  {
   "property": "C03",
   "status": "proved",
   "theorems": [
    "Amqp.c03_encoded_size_exact",
    "Amqp.c03_protocol_encoded_size_exact",
    "Amqp.c03_frame_length_prefix",
    "Amqp.c03_message_size_exact"
   ],
   "note": "Every Variant, protocol type, message and frame; the frame length prefix equals the number of bytes written."
  },
  {
   "property": "C04",
   "status": "proved",
   "theorems": [
    "Amqp.c04_reads_only_itself",
    "Amqp.c04_protocol_reads_only_itself",
    "Amqp.c04_arrays_ignore_later_bytes",
    "Amqp.c04_array_needs_following_bytes"
   ],
   "note": "Every Wire type; typed arrays are shown to need following bytes (a witness) and satisfy the weaker form for later bytes."
  },
  {
   "property": "C05",
   "status": "proved",
   "theorems": [
    "Amqp.c05_truncation_detected",
    "Amqp.c05_protocol_truncation_detected"
   ],
   "note": "No strict prefix of any encoding decodes."
  },
  {
   "property": "C06",
   "status": "partial",
   "theorems": [
    "Amqp.c06_scalars_never_panic",
    "Amqp.c06_values_panic_only_on_hazard_partial",
    "Amqp.c06_protocol_panic_only_on_hazard_partial",
    "Amqp.c06_frames_panic_only_on_hazard_partial",
    "Amqp.c06_stream_panic_only_on_hazard_partial",
    "Amqp.c06_hazards_panic",
    "Amqp.c06_open_frame_panics",
    "Amqp.c06_variant_not_panic_free"
   ],
   "note": "False of the code as written: witnesses for undersized compound headers and for maps as map keys, down to a 10-byte frame. Proved: scalars and enumerations never panic; every other decoder, the frame decoders, the message decoder and the stream codec panic only on inputs that contain one of those byte patterns. Stack exhaustion by deep nesting is not modelled."
  },
  {
   "property": "C07",
   "status": "proved",
   "theorems": [
    "Amqp.c07_amqp_frame_read_back",
    "Amqp.c07_sasl_frame_read_back",
    "Amqp.c07_frames_otherwise_identical",
    "Amqp.c07_amqp_stream",
    "Amqp.c07_sasl_stream",
    "Amqp.c07_example_wf"
   ],
   "note": "Single frames and whole streams, AMQP and SASL."
  },
  {
   "property": "C08",
   "status": "proved",
   "theorems": [
    "Amqp.c08_chunking_irrelevant",
    "Amqp.c08_stream_meaning"
   ],
   "note": "Any sequence of chunks; same frames, same first error."
  },
  {
   "property": "C09",
   "status": "proved",
   "theorems": [
    "Amqp.c09_refused_from_header",
    "Amqp.c09_yielded_frames_within_limit",
    "Amqp.c09_waits_only_within_limit"
   ],
   "note": "All headers and limits."
  },
  {
   "property": "C10",
   "status": "proved",
   "theorems": [
    "Amqp.c10_protocol_header_exact",
    "Amqp.c10_inverts_encoder"
   ],
   "note": "All byte strings."
  },
  {
   "property": "C11",
   "status": "proved",
   "theorems": [
    "Amqp.c11_performatives_round_trip",
    "Amqp.c11_other_composites_round_trip",
    "Amqp.c11_transfer_round_trip",
    "Amqp.c11_transfer_message",
    "Amqp.c11_empty_body_becomes_absent"
   ],
   "note": "All nine performatives and the other composites; one exception proved with a witness: a transfer with an empty payload is read back with the payload absent."
  },
  {
   "property": "C12",
   "status": "proved",
   "theorems": [
    "Amqp.c12_omitted_fields_default",
    "Amqp.c12_missing_mandatory_rejected"
   ],
   "note": "All layouts: omitted and null fields take their defaults; missing mandatory fields are refused."
  },
  {
   "property": "C13",
   "status": "proved",
   "theorems": [
    "Amqp.c13_descriptors_interchangeable",
    "Amqp.c13_unknown_descriptor_rejected",
    "Amqp.c13_delivery_state_selected",
    "Amqp.c13_outcome_selected",
    "Amqp.c13_sasl_selected",
    "Amqp.c13_frame_selected",
    "Amqp.c13_section_selected"
   ],
   "note": "All composite types and all dispatch points."
  },
  {
   "property": "C14",
   "status": "proved",
   "theorems": [
    "Amqp.c14_extra_fields_ignored"
   ],
   "note": "All composites."
  },
  {
   "property": "C15",
   "status": "proved",
   "theorems": [
    "Amqp.c15_enumerations",
    "Amqp.c15_open_enumerations",
    "Amqp.c15_custom_absorbed"
   ],
   "note": "Whole tables. Custom conditions spelled like standard ones are absorbed (witness)."
  },
  {
   "property": "C16",
   "status": "proved",
   "theorems": [
    "Amqp.c16_sections",
    "Amqp.c16_message_round_trip",
    "Amqp.c16_sections_preserved",
    "Amqp.c16_forwarding_stable",
    "Amqp.c16_message_through_transfer",
    "Amqp.c16_any_section_order"
   ],
   "note": "All well-formed messages; any order of sections."
  },
  {
   "property": "C17",
   "status": "partial",
   "theorems": [
    "Amqp.c17_size_after_mutations_partial",
    "Amqp.c17_resetting_operations_partial",
    "Amqp.c17_asking_changes_nothing",
    "Amqp.c17_stale_size",
    "Amqp.c17_stale_size_breaks_framing"
   ],
   "note": "False of the code: five mutators leave the cached size stale (witnesses), which breaks framing. Proved for every sequence of the remaining operations."
  },
  {
   "property": "C18",
   "status": "proved",
   "theorems": [
    "Amqp.c18_arrays_round_trip",
    "Amqp.c18_multiple_round_trip",
    "Amqp.c18_single_is_bare",
    "Amqp.c18_single_either_way",
    "Amqp.c18_described_elements_refused"
   ],
   "note": "All array-encodable element types; described elements are refused (witness)."
  },
  {
   "property": "C19",
   "status": "partial",
   "theorems": [
    "Amqp.c19_timestamp_partial",
    "Amqp.c19_before_epoch_partial",
    "Amqp.c19_sign_lost_before_epoch",
    "Amqp.c19_whole_second_before_epoch"
   ],
   "note": "Proved from the epoch on. Before the epoch the sign is lost (witness), with the exact result stated."
  },
  {
   "property": "C20",
   "status": "partial",
   "theorems": [
    "Amqp.Rt.c20_sends_within_credit",
    "Amqp.Rt.c20_total_sent_partial",
    "Amqp.Rt.c20_revoked_credit_wraps"
   ],
   "note": "Proved for every execution: the units of credit used since a flow are at most delivery-count + credit - own count in 32-bit serial arithmetic, and no delivery goes out without one; with the peer counting correctly this is the plain statement. Missing: a flow that revokes credit already used wraps to almost 2^32 (witness)."
  },
  {
   "property": "C21",
   "status": "proved",
   "theorems": [
    "Amqp.Rt.c21_credit_from_flow",
    "Amqp.Rt.c21_credit_in_step",
    "Amqp.Rt.c21_credit_behind",
    "Amqp.Rt.c21_no_credit_no_change"
   ],
   "note": "Every counter position; includes the in-step and behind cases."
  },
  {
   "property": "C22",
   "status": "proved",
   "theorems": [
    "Amqp.Rt.c22_ids_consecutive",
    "Amqp.Rt.c22_ids_distinct"
   ],
   "note": "Every execution of a session: ids are 1, 2, 3, ... modulo 2^32 in wire order."
  },
  {
   "property": "C23",
   "status": "partial",
   "theorems": [
    "Amqp.Rt.c23_wire_is_whole_deliveries",
    "Amqp.Rt.c23_split_lossless",
    "Amqp.Rt.c23_parts_bounded",
    "Amqp.Rt.c23_stale_size_never_ends"
   ],
   "note": "Proved for every message whose cached size is right (see C17): the whole wire is a concatenation of whole deliveries. A message with a stale size is cut without a last frame (witness)."
  },
  {
   "property": "C24",
   "status": "partial",
   "theorems": [
    "Amqp.Rt.c24_frame_fits_partial",
    "Amqp.Rt.c24_sent_frames_fit_partial",
    "Amqp.Rt.c24_small_limit_exceeded"
   ],
   "note": "Proved for announced limits above 2048 and tags of at most 1996 bytes. At or below 2048 false (witness at 512)."
  },
  {
   "property": "C25",
   "status": "partial",
   "theorems": [
    "Amqp.Rt.c25_deliveries_within_window",
    "Amqp.Rt.c25_total_sent_partial",
    "Amqp.Rt.c25_frames_within_window_partial",
    "Amqp.Rt.c25_split_delivery_overruns",
    "Amqp.Rt.c25_shrunk_window_wraps",
    "Amqp.Rt.c25_absent_id_wraps"
   ],
   "note": "Proved counting deliveries, and counting frames when no message is split. False counting frames (witness); a shrunk window and an absent next-incoming-id wrap to almost 2^32 (witnesses)."
  },
  {
   "property": "C26",
   "status": "partial",
   "theorems": [
    "Amqp.Rt.c26_blocked_is_queued",
    "Amqp.Rt.c26_every_send_accounted",
    "Amqp.Rt.c26_flow_wakes_window",
    "Amqp.Rt.c26_flow_wakes_link",
    "Amqp.Rt.c26_detach_releases",
    "Amqp.Rt.c26_failure_releases_partial",
    "Amqp.Rt.c26_rechecks_credit",
    "Amqp.Rt.c26_rechecks_window",
    "Amqp.Rt.c26_close_strands_senders",
    "Amqp.Rt.c26_detach_misses_window"
   ],
   "note": "Every execution: every send is queued, woken, failed for a reason, sent or cancelled; flows, detach and failure release; woken sends recheck. False for sends on a link this side closes (stranded for ever, witness) and for window-blocked sends of a detached link (witness)."
  },
  {
   "property": "C27",
   "status": "partial",
   "theorems": [
    "Amqp.Rt.c27_disposition_step",
    "Amqp.Rt.c27_records_partial",
    "Amqp.Rt.c27_waiters_partial",
    "Amqp.Rt.c27_nothing_else",
    "Amqp.Rt.c27_wrapping_range_ignored"
   ],
   "note": "Proved for ranges with first <= last (and absent last): exactly the covered records of the right direction, exactly their waiters. Ranges that wrap past 2^32-1 are ignored (witness)."
  },
  {
   "property": "C28",
   "status": "proved",
   "theorems": [
    "Amqp.Rt.c28_settled_once",
    "Amqp.Rt.c28_first_settlement_stays",
    "Amqp.Rt.c28_first_settle_wins",
    "Amqp.Rt.c28_dispositions_on_wire",
    "Amqp.Rt.c28_drop_rejects",
    "Amqp.Rt.c28_settled_is_final"
   ],
   "note": "Every execution: at most one settled disposition per delivery object, with the outcome of the first settle; drop without settling posts one rejection."
  },
  {
   "property": "C29",
   "status": "partial",
   "theorems": [
    "Amqp.Rt.c29_outcome_partial",
    "Amqp.Rt.c29_outcome_many_waits",
    "Amqp.Rt.c29_blocked_is_connected",
    "Amqp.Rt.c29_disposition_releases",
    "Amqp.Rt.c29_failure_releases",
    "Amqp.Rt.c29_released_finishes",
    "Amqp.Rt.c29_settled_resolves",
    "Amqp.Rt.c29_second_wait_breaks_first"
   ],
   "note": "Proved for the last wait on a delivery, before ids wrap; blocked waits are connected to a silent record, dispositions and failures release them. An earlier of two waits fails with ConnectionDropped (witness)."
  },
  {
   "property": "C30",
   "status": "proved",
   "theorems": [
    "Amqp.Rt.c30_guarded",
    "Amqp.Rt.c30_never_exceeds",
    "Amqp.Rt.c30_no_credit"
   ],
   "note": "Every execution: frames are taken in only while credit is left, so never more deliveries than granted (grants below 2^32 in total); a transfer without credit closes the link with transfer-limit-exceeded and nothing of it is ever handed over. The refusal theorem assumes the link is not already closed."
  },
  {
   "property": "C31",
   "status": "proved",
   "theorems": [
    "Amqp.Rt.c31_in_order",
    "Amqp.Rt.c31_taken_once",
    "Amqp.Rt.c31_take_next",
    "Amqp.Rt.c31_recv_next",
    "Amqp.Rt.c31_nothing_early",
    "Amqp.Rt.c31_any_split",
    "Amqp.Rt.c31_aborted_is_delivered"
   ],
   "note": "Every execution and every interleaving of reads: what the application took is a prefix of the messages assembled from the frames, each object once; any split of a message completes with exactly its payload and one unit of credit; complete messages are returned by the next read. The aborted flag is ignored (witness)."
  },
  {
   "property": "C32",
   "status": "partial",
   "theorems": [
    "Amqp.Rt.c32_over_limit",
    "Amqp.Rt.c32_any_split_partial",
    "Amqp.Rt.c32_first_frame_unchecked"
   ],
   "note": "Proved for every split in which a frame after the first carries a body: link closed with message-size-exceeded, message never handed over. The size of the first frame is not checked (witness)."
  },
  {
   "property": "C33",
   "status": "partial",
   "theorems": [
    "Amqp.Rt.c33_unattached",
    "Amqp.Rt.c33_transfer",
    "Amqp.Rt.c33_flow",
    "Amqp.Rt.c33_flow_applied",
    "Amqp.Rt.c33_detach_partial",
    "Amqp.Rt.c33_kept_receiver_partial",
    "Amqp.Rt.c33_kept_sender_partial",
    "Amqp.Rt.c33_refused_detaches_other",
    "Amqp.Rt.c33_refused_transfer",
    "Amqp.Rt.c33_unknown_detaches_other",
    "Amqp.Rt.c33_stale_name",
    "Amqp.Rt.c33_late_accept"
   ],
   "note": "A transfer on a never-attached handle is refused and changes nothing; transfers, flows and detaches touch only the slot and link their handle names; entries persist. Violated: stale table entries of refused links, unknown handles taken for slot numbers, stale names and late acceptance make frames reach other links (witnesses)."
  },
  {
   "property": "C34",
   "status": "partial",
   "theorems": [
    "Amqp.Rt.c34_sender_partial",
    "Amqp.Rt.c34_receiver",
    "Amqp.Rt.c34_wait_fails",
    "Amqp.Rt.c34_queued_fail",
    "Amqp.Rt.c34_other_send",
    "Amqp.Rt.c34_closed_waits",
    "Amqp.Rt.c34_inherits"
   ],
   "note": "A detach fails exactly the records carrying the link's handle, notifies exactly their waiters, who then get the error, and fails sends queued for credit. Violated: sends queued for the window are matched by the wrong handle, deliveries of a locally closed link stay pending and are inherited by the next link in the slot (witnesses)."
  },
  {
   "property": "C35",
   "status": "partial",
   "theorems": [
    "Amqp.Rt.c35_remote_channel_shared",
    "Amqp.Rt.c35_local_channel_shared",
    "Amqp.Rt.c35_end_closes_another",
    "Amqp.Rt.c35_end_sent_twice",
    "Amqp.Rt.c35_sessions_reachable",
    "Amqp.Rt.c35_only_its_session",
    "Amqp.Rt.c35_unknown_refused",
    "Amqp.Rt.c35_given_partial",
    "Amqp.Rt.c35_one_channel",
    "Amqp.Rt.c35_begin_answered",
    "Amqp.Rt.c35_begin_completes",
    "Amqp.Rt.c35_local_distinct_partial"
   ],
   "note": "Frames change only the session spoken to on their channel (by the history of Begin and End), it is given them unless its slab entry was asked to be closed, unknown channels are refused, local channels are distinct below 65536. Violated: a repeated Begin shares a remote channel, 65537 Begins share a local one, ending a session marks another as closing (remote channel used as slab index) and then sends End twice."
  },
  {
   "property": "C36",
   "status": "partial",
   "theorems": [
    "Amqp.Rt.c36_peer_limit_ignored",
    "Amqp.Rt.c36_peer_limit_unused",
    "Amqp.Rt.c36_own_limit_partial",
    "Amqp.Rt.c36_too_many",
    "Amqp.Rt.c36_begins"
   ],
   "note": "Own Begins go out below the local channel-max, else TooManyChannels. Violated as stated: the peer's channel-max is never looked at."
  },
  {
   "property": "C37",
   "status": "partial",
   "theorems": [
    "Amqp.Rt.c37_begin_after_failure",
    "Amqp.Rt.c37_closing_not_told",
    "Amqp.Rt.c37_receiver_not_told",
    "Amqp.Rt.c37_opening_other_error",
    "Amqp.Rt.c37_first_error_kept",
    "Amqp.Rt.c37_fails",
    "Amqp.Rt.c37_established_told_partial",
    "Amqp.Rt.c37_close_told_partial",
    "Amqp.Rt.c37_session_error_kept",
    "Amqp.Rt.c37_frames_ignored_partial",
    "Amqp.Rt.c37_open_refused"
   ],
   "note": "First error kept (connection and session), every established session told: error on the session and its sender links, no send or wait blocked; session frames ignored and open_session refused afterwards. Violated: Begin after failure is obeyed, sessions being ended are not told, receiver links close without the error, sessions being opened report Disconnected."
  },
  {
   "property": "C38",
   "status": "partial",
   "theorems": [
    "Amqp.Hs.c38_amqp_only_after_ok",
    "Amqp.Hs.c38_unexpected_aborts_partial",
    "Amqp.Hs.c38_success_only_by_the_book_partial",
    "Amqp.Hs.c38_conforming_server_accepted",
    "Amqp.Hs.c38_credentials_for_any_frame",
    "Amqp.Hs.c38_refusal_ignored"
   ],
   "note": "Every run, on every byte stream in any chunks, with disconnects and timeouts: nothing of AMQP is sent before an outcome with code ok; an unexpected item is the last event and fails the attempt; a connection only by the whole conversation; a conforming server gets one. Violated: the frame in the place of the mechanisms is not looked at, so even a refusal there does not abort, and the credentials are sent whatever was offered (witnesses)."
  },
  {
   "property": "C39",
   "status": "partial",
   "theorems": [
    "Amqp.Hs.c39_only_amqp_or_sasl",
    "Amqp.Hs.c39_init_before_outcome",
    "Amqp.Hs.c39_unexpected_aborts",
    "Amqp.Hs.c39_only_by_the_book",
    "Amqp.Hs.c39_open_ends_the_path",
    "Amqp.Hs.c39_not_ok_not_opened_partial",
    "Amqp.Hs.c39_refused_but_opened",
    "Amqp.Hs.c39_not_ok_not_opened_fails",
    "Amqp.Hs.c39_challenge_stalls"
   ],
   "note": "Every run and every service: only AMQP and SASL headers, init before outcome, unexpected items end the handshake, an open only at the end of one of three conversations, each with a fresh AMQP header. A non-ok outcome is not opened if the service itself stops. Violated: any code yields a success token and the connection opens (witness); after a challenge one more SASL frame is awaited, so a conforming client's AMQP header is swallowed and the handshake stalls (proved for every service and client)."
  },
  {
   "property": "C40",
   "status": "proved",
   "theorems": [
    "Amqp.Rt.c40_direct_overtakes",
    "Amqp.Rt.c40_in_order_once",
    "Amqp.Rt.c40_poll_hands_all"
   ],
   "note": "Queued = handed ++ still queued, in every reachable state; poll hands all. Control frames made from the peer's frames are called directly and overtake queued ones (c40_direct_overtakes)."
  },
  {
   "property": "C41",
   "status": "proved",
   "theorems": [
    "Amqp.Rt.c41_outcome",
    "Amqp.Rt.c41_nothing_else"
   ],
   "note": "For every reachable router state: what is sent about a message whose handler is done is exactly one settled disposition with the state of the outcome, under the peer's delivery id, or nothing if the message came settled; what is sent about any other message taken is nothing or the rejection of a dropped delivery."
  },
  {
   "property": "C42",
   "status": "partial",
   "theorems": [
    "Amqp.Rt.c42_in_order",
    "Amqp.Rt.c42_genuine",
    "Amqp.Rt.c42_unmatched",
    "Amqp.Rt.c42_refused_partial",
    "Amqp.Rt.c42_dispatch_after_detach",
    "Amqp.Rt.c42_closed_link_keeps_handler"
   ],
   "note": "The order of the router's events is proved without exception (handler only for an offered link, from the factory its address is routed to; message only taken from a link with a handler and only given to that handler, once). Unmatched links never get a handler; that they are detached is proved when the link still waits for the answer. Violated: a message taken before the peer's detach is given to the released handler after it; the handler of a link the application closes is never released."
  },
  {
   "property": "C43",
   "status": "partial",
   "theorems": [
    "Amqp.Rt.c43_credit",
    "Amqp.Rt.c43_exact",
    "Amqp.Rt.c43_count",
    "Amqp.Rt.c43_remote_count",
    "Amqp.Rt.c43_local_count_wrong",
    "Amqp.Rt.c43_announced_partial",
    "Amqp.Rt.c43_increment_announced"
   ],
   "note": "Visible credit equals grants less completed deliveries; the delivery-count grows by completed deliveries only. Announced exactly when no credit was left. False otherwise: only the increment is announced (witness); for links attached by the application the count ignores the peer's initial-delivery-count (witness)."
  },
  {
   "property": "C44",
   "status": "proved",
   "theorems": [
    "Amqp.c44_unambiguous",
    "Amqp.c44_uniquely_parsable",
    "Amqp.c44_protocol_uniquely_parsable"
   ],
   "note": "All Wire types; sequences of values parse uniquely."
  },
  {
   "property": "C45",
   "status": "proved",
   "theorems": [
    "Amqp.c45_errors_are_final",
    "Amqp.c45_protocol_errors_are_final"
   ],
   "note": "All Wire types: a definitive decode error is not undone by more bytes."
  },
  {
   "property": "C46",
   "status": "partial",
   "theorems": [
    "Amqp.Rt.c46_no_disposition_after_settlement_partial",
    "Amqp.Rt.c46_accepted_then_rejected"
   ],
   "note": "Proved once wait has noticed the settlement. False otherwise: accepted, reported by wait, and then rejected by drop (witness)."
  },
  {
   "property": "C47",
   "status": "partial",
   "theorems": [
    "Amqp.Rt.c47_late_wait_answers_partial",
    "Amqp.Rt.c47_settled_without_state_blocks",
    "Amqp.Rt.c47_modified_reported_once"
   ],
   "note": "Proved when a state was reported. False for settlement without a state, and for a second wait after modified (witnesses)."
  },
  {
   "property": "C48",
   "status": "partial",
   "theorems": [
    "Amqp.Rt.c48_queues_behind_partial",
    "Amqp.Rt.c48_new_send_overtakes"
   ],
   "note": "Proved: a new send queues behind those queued. False: it overtakes sends woken but not polled (witness)."
  },
  {
   "property": "C49",
   "status": "proved",
   "theorems": [
    "Amqp.Hs.c49_both_open"
   ],
   "note": "Every configuration whose frames are well-formed and fit the client's frame limit, every accepting service, every chunking in both directions. States about runs in which everything sent has arrived."
  },
  {
   "property": "C50",
   "status": "partial",
   "theorems": [
    "Amqp.c50_primitives_accepted",
    "Amqp.c50_values_accepted",
    "Amqp.c50_timestamps_not_accepted",
    "Amqp.c50_zero_descriptor_not_accepted"
   ],
   "note": "Every encoding the AMQP specification defines, in every width a peer may choose (relation form/Tree in Spec/Standard.lean, written without the encoder or decoder), for every primitive, descriptor and value tree of any depth. False for timestamps within a second before the epoch or on a whole second before it (c50_timestamps_not_accepted) and for the descriptor 0 in its shortest form (c50_zero_descriptor_not_accepted); Tree excludes those."
  },
  {
   "property": "C51",
   "status": "proved",
   "theorems": [
    "Amqp.c51_values_standard",
    "Amqp.c51_primitives_standard"
   ],
   "note": "Every well-formed value tree and primitive is written in one of the standard forms. Symbols must be ASCII, as the specification requires and the code does not check."
  },
  {
   "property": "C52",
   "status": "partial",
   "theorems": [
    "Amqp.c52_text_is_utf8",
    "Amqp.c52_only_standard_partial",
    "Amqp.c52_booleans_partial",
    "Amqp.c52_symbols_partial",
    "Amqp.c52_boolean_two_accepted",
    "Amqp.c52_symbol_not_ascii_accepted"
   ],
   "note": "Exact for 14 primitive types, and text is accepted iff it is the UTF-8 of a character sequence. False for booleans (0x56 followed by 2 is true) and symbols (non-ASCII accepted); what is accepted instead is stated exactly."
  },
  {
   "property": "C53",
   "status": "partial",
   "theorems": [
    "Amqp.Rt.c53_counters",
    "Amqp.Rt.c53_link",
    "Amqp.Rt.c53_incoming_partial",
    "Amqp.Rt.c53_incoming_stale",
    "Amqp.Rt.c53_incoming_missing",
    "Amqp.Rt.c53_echo",
    "Amqp.Rt.c53_echo_link"
   ],
   "note": "Counters, link named, echo behaviour proved for every execution. The next-incoming-id is proved to be the one the peer stated last (c53_incoming_partial); that it counts the transfers received is false (c53_incoming_stale: session.rs:847 discards the increment) and it is omitted from echo answers of remote-begun sessions (c53_incoming_missing)."
  },
  {
   "property": "C54",
   "status": "partial",
   "theorems": [
    "Amqp.Rt.c54_only_peer",
    "Amqp.Rt.c54_told_sender",
    "Amqp.Rt.c54_told_receiver_partial",
    "Amqp.Rt.c54_error_withheld",
    "Amqp.Rt.c54_told_end",
    "Amqp.Rt.c54_told_local_end"
   ],
   "note": "Every call about the peer is for a frame the peer sent; the calls for detaches and ends carry their contents, except that the error of a receiver detach is withheld (c54_error_withheld, session.rs handle_detach takes it first)."
  },
  {
   "property": "C55",
   "status": "partial",
   "theorems": [
    "Amqp.c55_types_read",
    "Amqp.c55_performatives_read",
    "Amqp.c55_header_exact",
    "Amqp.c55_amqp_stream",
    "Amqp.c55_sasl_stream",
    "Amqp.c55_filters_not_read"
   ],
   "note": "Proved for every composite type, performative, frame header and stream against tables written from the specification. Filters with described values are refused (c55_filters_not_read, a violation); some dates before 1970 are not read (c50_timestamps_not_accepted)."
  },
  {
   "property": "C56",
   "status": "proved",
   "theorems": [
    "Amqp.c56_reply",
    "Amqp.c56_reply_reaches_requester"
   ],
   "note": "The reply carries the request's message-id as correlation-id, also end to end through encoding and decoding."
  },
  {
   "property": "C57",
   "status": "proved",
   "theorems": [
    "Amqp.c57_messages_read"
   ],
   "note": "Every standard encoding of a message (sections in order, descriptors numeric or symbolic, any form of each value) decodes to the sections it denotes; times restricted as in C55."
  },
  {
   "property": "C58",
   "status": "partial",
   "theorems": [
    "Amqp.Rt.c58_peer",
    "Amqp.Rt.c58_panic",
    "Amqp.Rt.c58_end_then_accept",
    "Amqp.Rt.c58_detach_then_accept",
    "Amqp.Rt.c58_fail_then_accept",
    "Amqp.Rt.c58_detach_opening",
    "Amqp.Rt.c58_overflow",
    "Amqp.Rt.c58_grant",
    "Amqp.Rt.c58_count_overflows",
    "Amqp.Rt.c58_credit_overflows"
   ],
   "note": "Violated: the peer makes the session panic by ending or detaching before the control service accepts its link; counters overflow. Proved: no frame by itself panics, and exactly which steps panic or overflow."
  },
  {
   "property": "C59",
   "status": "partial",
   "theorems": [
    "Amqp.Hs.c59_client_partial",
    "Amqp.Hs.c59_server_partial",
    "Amqp.Hs.c59_server_limit_differs",
    "Amqp.Hs.c59_server_no_limit"
   ],
   "note": "Client: announced limits are the configured ones, kept on the connection made by the handshake (channels begun below channel-max, transfer frames within the peer's max-frame-size), and the decoder's limit is the one announced. Server: the same, but its decoder uses max_size instead of what was announced (witnesses)."
  },
  {
   "property": "C61",
   "status": "partial",
   "theorems": [
    "Amqp.Rt.c61_control_first",
    "Amqp.Rt.c61_waiting_partial",
    "Amqp.Rt.c61_accepted_partial",
    "Amqp.Rt.c61_refused_partial",
    "Amqp.Rt.c61_established_partial",
    "Amqp.Rt.c61_unaccepted_used",
    "Amqp.Rt.c61_unaccepted_used_by_peer"
   ],
   "note": "Proved for executions in which no link being attached loses its slot (conditions stated in Spec/Accepting.lean): nothing is taken in before both services accepted, in that order; refused links never take in anything; accepted ones are established. That the control service is asked first holds in every execution. False otherwise, also by the peer's frames alone (witnesses)."
  },
  {
   "property": "C60",
   "status": "partial",
   "theorems": [
    "Amqp.Rt.c60_renewed",
    "Amqp.Rt.c60_served_partial",
    "Amqp.Rt.c60_not_starved_partial",
    "Amqp.Rt.c60_answered_partial"
   ],
   "note": "Every state: when a handler is about to be given a message on a link without credit, exactly 50 units are granted and announced. Orderly executions: every complete message reaches the handler in order, is answered once, and the link has credit when the router is idle. Missing: executions in which the connection closes, a handler service is not ready, a call is dropped, the application takes messages itself, or a link loses its slot while being attached."
  },
  {
   "property": "C62",
   "status": "proved",
   "theorems": [
    "Amqp.Rt.c62_frames_in_order",
    "Amqp.Rt.c62_messages_in_order",
    "Amqp.Rt.c62_nothing_missing"
   ],
   "note": "for any two fresh sessions of the library, joined by a transport that keeps each direction in order; frames on arrival as by C07"
  },
  {
   "property": "C63",
   "status": "partial",
   "theorems": [
    "Amqp.Rt.c63_credit_suffices_partial",
    "Amqp.Rt.c63_next_frame_taken_partial",
    "Amqp.Rt.c63_never_refused_partial",
    "Amqp.Rt.c63_early_grant_refused"
   ],
   "note": "credit granted while some is left is announced as if there were none: with messages on their way the sender believes it has 2^32-1 units, and the receiver refuses what was sent (c63_early_grant_refused). Proved for receivers that grant only when nothing is left, over any execution in which the link stays open, both ends begin to count at the same number, the messages fit the receiver's limit and the sender's flow frames take effect in order (C71 has when the dispatcher does not see to that)"
  },
  {
   "property": "C64",
   "status": "partial",
   "theorems": [
    "Amqp.Rt.c64_local_sender",
    "Amqp.Rt.c64_local_receiver",
    "Amqp.Rt.c64_answered_sender",
    "Amqp.Rt.c64_answered_receiver",
    "Amqp.Rt.c64_asked_sender",
    "Amqp.Rt.c64_asked_receiver",
    "Amqp.Rt.c64_accepted_sender",
    "Amqp.Rt.c64_answer_sender",
    "Amqp.Rt.c64_refused_sender_partial",
    "Amqp.Rt.c64_accepted_receiver_control",
    "Amqp.Rt.c64_accepted_receiver",
    "Amqp.Rt.c64_answer_receiver",
    "Amqp.Rt.c64_refused_receiver",
    "Amqp.Rt.c64_sender_parameters",
    "Amqp.Rt.c64_builders",
    "Amqp.Rt.c64_builder_defaults",
    "Amqp.Rt.c64_refusal_has_peers_role",
    "Amqp.Rt.c64_attach_ignored",
    "Amqp.Rt.c64_role_not_checked",
    "Amqp.Rt.c64_both_directions",
    "Amqp.Rt.c64_builder_no_count",
    "Amqp.Rt.c64_announced_limit",
    "Amqp.Rt.c64_announced_limit_exceeded",
    "Amqp.Rt.c64_zero_limit"
   ],
   "note": "proved: the frames, handles and link parameters of every way a link is attached, accepted or refused; c64_refused_sender_partial leaves out the role. Violated: role of a refusal, roles not checked, names and addresses share one map, both directions share one name, no initial delivery-count from the sender builder, the announced limit of a local receiver is not enforced, a limit of 0 is taken literally"
  },
  {
   "property": "C65",
   "status": "partial",
   "theorems": [
    "Amqp.Rt.c65_close_sender",
    "Amqp.Rt.c65_detach_sender",
    "Amqp.Rt.c65_close_receiver",
    "Amqp.Rt.c65_detach_receiver",
    "Amqp.Rt.c65_close_twice",
    "Amqp.Rt.c65_confirmed",
    "Amqp.Rt.c65_peer_detaches_sender",
    "Amqp.Rt.c65_peer_detaches_receiver",
    "Amqp.Rt.c65_always_closes",
    "Amqp.Rt.c65_opening_never_closed",
    "Amqp.Rt.c65_detach_unanswered"
   ],
   "note": "every case in which a link is closed, detached, confirmed or detached by the peer is proved exactly. Violated: the answer to a detach always closes (c65_always_closes); closing a link not answered yet never completes (c65_opening_never_closed); the peer's detach of a link still being offered is not answered (c65_detach_unanswered)"
  },
  {
   "property": "C66",
   "status": "partial",
   "theorems": [
    "Amqp.Rt.c66_detach",
    "Amqp.Rt.c66_slot",
    "Amqp.Rt.c66_transfer_partial",
    "Amqp.Rt.c66_transfer_after_close",
    "Amqp.Rt.c66_transfer_after_detach",
    "Amqp.Rt.c66_flow_after_close",
    "Amqp.Rt.c66_flow_before_attach",
    "Amqp.Rt.c66_attached_twice"
   ],
   "note": "Proved for every execution (with slot numbers below 2^32 and a control service that leaves the handle alone): a detach goes out only for a handle that was attached and not detached since; established and offered links are attached under their slot number; only send and its resumption post transfers, under the handle of the link, which is attached unless the link has been closed. Violated, with witnesses: a send that waits for the session window transfers after either side's detach; credit granted after close or before the attach is announced; a late acceptance attaches a second link under a handle in use."
  },
  {
   "property": "C67",
   "status": "partial",
   "theorems": [
    "Amqp.Rt.c67_interval",
    "Amqp.Rt.c67_pinged",
    "Amqp.Rt.c67_heard_partial",
    "Amqp.Rt.c67_not_too_often",
    "Amqp.Rt.c67_short_timeouts",
    "Amqp.Rt.c67_none",
    "Amqp.Rt.c67_ping_bytes",
    "Amqp.Rt.c67_ping_ignored"
   ],
   "note": "Proved for every 32-bit timeout, every rounding of the f32 arithmetic within its error bound, and every sequence of polls: pings are due at most every second and every three eighths of the peer's timeout, never more often than every half second, and a prompt dispatcher leaves no gap of more than half the timeout. False for timeouts of 1 to 1333 ms: never pinged (c67_short_timeouts). The timers and wake-ups of the runtime are a hypothesis (Prompt); the library's own announced timeout is not enforced by it and not part of the claim."
  },
  {
   "property": "C68",
   "status": "proved",
   "theorems": [
    "Amqp.Rt.c68_outcome",
    "Amqp.Rt.c68_same_message",
    "Amqp.Rt.c68_reaches_sender",
    "Amqp.Rt.c68_all_told"
   ],
   "note": "Two sessions of the model connected by an in-order transport (Model/Pair). Delivery ids are taken not to have wrapped around on the sending side (fewer than 2^32 deliveries)."
  },
  {
   "property": "C69",
   "status": "partial",
   "theorems": [
    "Amqp.c69_value",
    "Amqp.c69_depth",
    "Amqp.c69_properties",
    "Amqp.c69_unsettled",
    "Amqp.c69_annotations",
    "Amqp.c69_application_properties",
    "Amqp.c69_sequence",
    "Amqp.c69_capabilities",
    "Amqp.c69_frame",
    "Amqp.c69_sasl",
    "Amqp.c69_message",
    "Amqp.c69_stream_frame",
    "Amqp.c69_stream_total",
    "Amqp.c69_reserve_list",
    "Amqp.c69_hollow_array",
    "Amqp.c69_reserve_unbounded",
    "Amqp.c69_deep"
   ],
   "note": "The bound on decoded values is proved for every value, frame, message and stream. It fails for typed arrays of zero-width elements (c69_hollow_array), for the capacity set aside before elements are read (c69_reserve_unbounded) and the recursion is limited by the frame size only (c69_deep). Bytes of memory per unit, allocator and stack are not modelled."
  },
  {
   "property": "C70",
   "status": "proved",
   "theorems": [
    "Amqp.Rt.c70_refines",
    "Amqp.Rt.c70_partner",
    "Amqp.Rt.c70_one_partner",
    "Amqp.Rt.c70_no_refusal",
    "Amqp.Rt.c70_answered",
    "Amqp.Rt.c70_frames_in_order",
    "Amqp.Rt.c70_messages_in_order",
    "Amqp.Rt.c70_nothing_missing"
   ],
   "note": "For executions in which no connection has failed, no session was ended and at most 2^16 sessions were begun on each side; C37 has what goes wrong with channels after a session was ended. The two connections exchange frames as the codec delivers them (C07, C22)."
  },
  {
   "property": "C71",
   "status": "partial",
   "theorems": [
    "Amqp.Rt.c71_is_connection",
    "Amqp.Rt.c71_each_once",
    "Amqp.Rt.c71_right_frame",
    "Amqp.Rt.c71_none_missing",
    "Amqp.Rt.c71_poll",
    "Amqp.Rt.c71_in_order_partial",
    "Amqp.Rt.c71_out_of_order",
    "Amqp.Rt.c71_stale_credit"
   ],
   "note": "answers take effect out of the order of the calls when three or more are outstanding (c71_out_of_order), and a link may be left with the credit of an older flow frame (c71_stale_credit). Order is proved for at most two calls at a time; that each call is answered once, acts on the frame it was about and none is lost is proved for every execution"
  },
  {
   "property": "C72",
   "status": "partial",
   "theorems": [
    "Amqp.c72_types_written",
    "Amqp.c72_frames_written",
    "Amqp.c72_sasl_frames_written",
    "Amqp.c72_messages_written_partial",
    "Amqp.c72_mixed_body"
   ],
   "note": "every composite type, AMQP frame and SASL frame is covered without exception; messages are covered when their body is of one kind. A body mixing kinds is written as it is (c72_mixed_body). Symbols must be ASCII and raw described data standard, which the Rust types do not enforce. A body without any section counts as one without data sections."
  },
  {
   "property": "C73",
   "status": "partial",
   "theorems": [
    "Amqp.Rt.c73_frame_read_back",
    "Amqp.Rt.c73_connection_read_back",
    "Amqp.Rt.c73_within_limit_partial",
    "Amqp.Rt.c73_two_connections",
    "Amqp.Rt.c73_attach_over_limit"
   ],
   "note": "every frame is read back when the reader admits its size; transfers are within a limit above 2048 by themselves, the other frames are sent whatever their size (c73_attach_over_limit, violated). Values given by the application must be well formed (less than 2^28 bytes each), message sizes honest (C17) and tags at most 1996 bytes. Frames of the handshake are C33-C36, not here."
  },
  {
   "property": "C74",
   "status": "partial",
   "theorems": [
    "Amqp.Rt.c74_error_made",
    "Amqp.Rt.c74_shorthands",
    "Amqp.Rt.c74_error_arrives",
    "Amqp.Rt.c74_codes_partial",
    "Amqp.Rt.c74_errant_link"
   ],
   "note": "every way of making an error with the API and every error value is covered; of the 28 constants all but ERRANT_LINK, which is misspelt in the code (c74_errant_link, violated). The conversions of the application's own error types are its own."
  },
  {
   "property": "C75",
   "status": "proved",
   "theorems": [
    "Amqp.Rt.c75_refines",
    "Amqp.Rt.c75_no_error",
    "Amqp.Rt.c75_all_arrived",
    "Amqp.Rt.c75_no_refusal",
    "Amqp.Rt.c75_messages_in_order",
    "Amqp.Rt.c75_nothing_missing"
   ],
   "note": "holds as long as the frames are ones the other codec accepts: messages with honest sizes (C16), no frame above the codec's limit (C73, C24), which is asked of the state reached. The handshake before the first frame is Model/Handshake."
  },
  {
   "property": "C76",
   "status": "proved",
   "theorems": [
    "Amqp.Rt.c76_refines",
    "Amqp.Rt.c76_both_up",
    "Amqp.Rt.c76_drained",
    "Amqp.Rt.c76_no_refusal",
    "Amqp.Rt.c76_to_server",
    "Amqp.Rt.c76_nothing_missing"
   ],
   "note": "for clients and servers that accept each other (Meet); refusals are C38, C39, C44 and C49. The rest as for C75."
  },
  {
   "property": "C77",
   "status": "partial",
   "theorems": [
    "Amqp.Rt.c77_is_dispatcher",
    "Amqp.Rt.c77_peer_close_answered",
    "Amqp.Rt.c77_close_count",
    "Amqp.Rt.c77_error_reported",
    "Amqp.Rt.c77_ready_idle",
    "Amqp.Rt.c77_stopped_for_good",
    "Amqp.Rt.c77_answered_twice",
    "Amqp.Rt.c77_refusal_untold",
    "Amqp.Rt.c77_reason_withheld",
    "Amqp.Rt.c77_begin_after_close"
   ],
   "note": "missing: one Close at most, and one for each refusal; both are violated (c77_answered_twice, c77_refusal_untold). What ntex does with the transport after the dispatcher stops is not modelled."
  },
  {
   "property": "C78",
   "status": "partial",
   "theorems": [
    "Amqp.Rt.c78_order",
    "Amqp.Rt.c78_until_error",
    "Amqp.Rt.c78_not_closed",
    "Amqp.Rt.c78_default_accepts"
   ],
   "note": "the documentation of start_default says that any control message closes the connection; it does not (c78_default_accepts, violated). Missing: nothing else; the order is exact for services that answer everything at once."
  },
  {
   "property": "C79",
   "status": "partial",
   "theorems": [
    "Amqp.Rt.c79_each_once",
    "Amqp.Rt.c79_at_most_once",
    "Amqp.Rt.c79_numbered",
    "Amqp.Rt.c79_failure_answers",
    "Amqp.Rt.c79_open_session",
    "Amqp.Rt.c79_open_failure_answers",
    "Amqp.Rt.c79_attach_after_end",
    "Amqp.Rt.c79_attach_displaced"
   ],
   "note": "two ways an attach request is not answered about its own link are proved (c79_attach_after_end, c79_attach_displaced, violated). Missing: nothing else; after a panic only the upper bound is stated."
  },
  {
   "property": "C80",
   "status": "partial",
   "theorems": [
    "Amqp.Rt.c80_begins",
    "Amqp.Rt.c80_window",
    "Amqp.Rt.c80_one_way",
    "Amqp.Rt.c80_no_waiting",
    "Amqp.Rt.c80_stops"
   ],
   "note": "that a session in which messages go one way stops for good after 2^32-1 deliveries is proved (c80_stops, violated). Missing: nothing else; the statement is about two endpoints of this library."
  },
  {
   "property": "C81",
   "status": "partial",
   "theorems": [
    "Amqp.Rt.c81_same_session",
    "Amqp.Rt.c81_asleep_nothing_partial",
    "Amqp.Rt.c81_woken_partial",
    "Amqp.Rt.c81_detach_sleeps",
    "Amqp.Rt.c81_sleeps_for_ever",
    "Amqp.Rt.c81_two_readers"
   ],
   "note": "that dropping a link from the table closes it without waking its reader, who then sleeps for ever, is proved (c81_detach_sleeps, c81_sleeps_for_ever, violated). Missing: the theorem is for links read by one task each (c81_two_readers shows why) and executions without such drops; wake-ups of senders and of on_close/on_credit are not part of it."
  },
  {
   "property": "C82",
   "status": "partial",
   "theorems": [
    "Amqp.Hs.c82_server_says_why",
    "Amqp.Hs.c82_server_names_item",
    "Amqp.Hs.c82_client_says_why",
    "Amqp.Hs.c82_client_names_item",
    "Amqp.Hs.c82_plain_says_why",
    "Amqp.Hs.c82_client_misreports"
   ],
   "note": "a client that is sent another SASL frame where the outcome is due reports that it was disconnected (c82_client_misreports, violated); what the application's handshake service fails with is its own (Service.Declines). The texts of the errors are not modelled."
  },
  {
   "property": "C83",
   "status": "partial",
   "theorems": [
    "Amqp.Rt.c83_in_order",
    "Amqp.Rt.c83_only_after_handshake",
    "Amqp.Rt.c83_application_free",
    "Amqp.Rt.c83_nothing_handled_before",
    "Amqp.Rt.c83_refines",
    "Amqp.Rt.c83_to_server",
    "Amqp.Rt.c83_failure_untold",
    "Amqp.Rt.c83_open_then_dropped",
    "Amqp.Rt.c83_never_given_up"
   ],
   "note": "that a failing service factory leaves the peer with an opened connection dropped without Close (c83_failure_untold, c83_open_then_dropped) and that the handshake timeout does not cover the services (c83_never_given_up) are proved (violated). The end of the transport while the services are made is not modelled."
  },
  {
   "property": "C84",
   "status": "partial",
   "theorems": [
    "Amqp.Rt.c84_queue_empty",
    "Amqp.Rt.c84_none_answered_partial",
    "Amqp.Rt.c84_answer_wakes_partial",
    "Amqp.Rt.c84_call_wakes",
    "Amqp.Rt.c84_run_attends",
    "Amqp.Rt.c84_is_dispatcher",
    "Amqp.Rt.c84_left_by_error",
    "Amqp.Rt.c84_answer_unheard"
   ],
   "note": "proved while the dispatcher has no error of its own; after a poll that ends with a protocol error, answered calls and the error itself wait with nobody to wake the task (c84_left_by_error, c84_answer_unheard: violated). Whether the framework polls readiness in the same run is not modelled."
  },
  {
   "property": "C85",
   "status": "partial",
   "theorems": [
    "Amqp.Rt.c85_asleep",
    "Amqp.Rt.c85_woken",
    "Amqp.Rt.c85_answer",
    "Amqp.Rt.c85_failure_partial",
    "Amqp.Rt.c85_same_session",
    "Amqp.Rt.c85_unaccepted_sleeps",
    "Amqp.Rt.c85_refused_sleeps"
   ],
   "note": "that a task asleep in ready() has an open link without credit holds of every execution; that it is told when the link dies is proved for established links only: links the control service has not accepted are never closed, neither by a failure of the connection nor by a refusal (c85_unaccepted_sleeps, c85_refused_sleeps: violated)."
  },
  {
   "property": "C86",
   "status": "partial",
   "theorems": [
    "Amqp.Rt.c86_over_iff_error",
    "Amqp.Rt.c86_answered",
    "Amqp.Rt.c86_waits",
    "Amqp.Rt.c86_failed_partial",
    "Amqp.Rt.c86_kept",
    "Amqp.Rt.c86_forgotten",
    "Amqp.Rt.c86_forgotten_witness",
    "Amqp.Rt.c86_loss_is_success"
   ],
   "note": "that the peer's End completes the future of Session::end, with what, and that the result stays, holds of every execution; that a failure of the connection completes it is proved for established sessions only: a session being ended is forgotten and its future is never completed, whatever happens afterwards (c86_forgotten: violated for all such sessions). A session lost with its connection reports success (c86_loss_is_success)."
  },
  {
   "property": "C87",
   "status": "partial",
   "theorems": [
    "Amqp.Rt.c87_first_error",
    "Amqp.Rt.c87_on_close",
    "Amqp.Rt.c87_opened",
    "Amqp.Rt.c87_stays_closed",
    "Amqp.Rt.c87_session",
    "Amqp.Rt.c87_session_ending",
    "Amqp.Rt.c87_ended_found",
    "Amqp.Rt.c87_session_failed",
    "Amqp.Rt.c87_close_unseen",
    "Amqp.Rt.c87_sender",
    "Amqp.Rt.c87_sender_found",
    "Amqp.Rt.c87_receiver",
    "Amqp.Rt.c87_named_partial",
    "Amqp.Rt.c87_wrong_name",
    "Amqp.Rt.c87_wrong_remote"
   ],
   "note": "what is looked up under a local channel or a local handle is exact in every execution, as are get_error, on_close and is_opened. Violated: lookups by name and by the peer's handle may return another link (c87_wrong_name, c87_wrong_remote); close is not seen by those who watch the connection (c87_close_unseen). Lookup by name is proved at the moment the link is attached (c87_named_partial). Whether the transport is closed is a parameter."
  },
  {
   "property": "C88",
   "status": "proved",
   "theorems": [
    "Amqp.c88_array_back",
    "Amqp.c88_array_as_vec",
    "Amqp.c88_array_travels",
    "Amqp.c88_vec_as_array",
    "Amqp.c88_array_of_described",
    "Amqp.c88_array_excess",
    "Amqp.c88_array_count",
    "Amqp.c88_described_back",
    "Amqp.c88_described_travels",
    "Amqp.c88_described_list",
    "Amqp.c88_documented_bytes",
    "Amqp.c88_described_excess",
    "Amqp.c88_described_simple",
    "Amqp.c88_long",
    "Amqp.c88_ulong",
    "Amqp.c88_readable",
    "Amqp.c88_withheld",
    "Amqp.c88_text"
   ],
   "note": "arrays, described compounds, as_long, as_ulong, as_str. Three edges are proved as violations: an array's surplus payload bytes are ignored (c88_array_excess), a described compound made from a simple value comes back as another kind of value (c88_described_simple), as_long withholds small ulongs (c88_withheld); the bytes in the documentation of DescribedCompound are malformed (c88_documented_bytes). The 32-bit item counter of Array::new is assumed not to overflow."
  },
  {
   "property": "C89",
   "status": "partial",
   "theorems": [
    "Amqp.c89_property",
    "Amqp.c89_annotation",
    "Amqp.c89_set",
    "Amqp.c89_not_replaced",
    "Amqp.c89_annotation_not_replaced",
    "Amqp.c89_travels",
    "Amqp.c89_sent_twice",
    "Amqp.c89_reply",
    "Amqp.c89_reply_travels",
    "Amqp.c89_body",
    "Amqp.c89_data_first",
    "Amqp.c89_load_partial",
    "Amqp.c89_empty_not_loaded"
   ],
   "note": "lookups are exact for every history that changes properties by name, and unchanged by the wire; replies are exact. Violated: a property or annotation set again keeps its first value for every reader of this crate (c89_not_replaced, c89_annotation_not_replaced) and is sent twice in one map (c89_sent_twice); an empty message cannot be loaded by the receiver (c89_empty_not_loaded), so c89_load_partial excludes it; data() gives only the first data section (c89_data_first)."
  },
  {
   "property": "C90",
   "status": "partial",
   "theorems": [
    "Amqp.Hs.c90_one_reading",
    "Amqp.Hs.c90_presented",
    "Amqp.Hs.c90_told_apart",
    "Amqp.Hs.c90_confused",
    "Amqp.Hs.c90_unreadable",
    "Amqp.Hs.c90_sent",
    "Amqp.Hs.c90_none_sent",
    "Amqp.Hs.c90_seen"
   ],
   "note": "proved for credentials without NUL, in every execution of the client's handshake. Violated without the condition, which the client does not check: c90_confused, c90_unreadable. That the server's mechanisms are not looked at is C38."
  },
  {
   "property": "C91",
   "status": "partial",
   "theorems": [
    "Amqp.Hs.c91_announced",
    "Amqp.Hs.c91_understood",
    "Amqp.Hs.c91_capabilities",
    "Amqp.Hs.c91_pinged",
    "Amqp.Hs.c91_one_second",
    "Amqp.Hs.c91_below_minimum"
   ],
   "note": "exact for all sequences of builder calls. Violated: an idle timeout of one second makes a peer of this library send nothing to keep the connection alive (c91_one_second); a maximum frame size below 512 is announced (c91_below_minimum)."
  },
  {
   "property": "C92",
   "status": "partial",
   "theorems": [
    "Amqp.c92_back",
    "Amqp.c92_size",
    "Amqp.c92_plain_reading",
    "Amqp.c92_other_descriptor",
    "Amqp.c92_only_described",
    "Amqp.c92_accepted",
    "Amqp.c92_simple_refused",
    "Amqp.c92_not_back"
   ],
   "note": "round trip, exact size and plain reading for every suitable item type. Violated: a type whose encoding is no compound is written but not read back, though the trait Composite does not ask for one (c92_simple_refused, c92_not_back)."
  },
  {
   "property": "C93",
   "status": "proved",
   "theorems": [
    "Amqp.c93_text",
    "Amqp.c93_as_str",
    "Amqp.c93_across",
    "Amqp.c93_two_values",
    "Amqp.c93_ensured",
    "Amqp.c93_named",
    "Amqp.c93_constructor_across"
   ],
   "note": "for all values, texts, constructors and descriptors; text is compared byte by byte, as ByteString does."
  },
  {
   "property": "C94",
   "status": "partial",
   "theorems": [
    "Amqp.Hs.c94_client_blamed",
    "Amqp.Hs.c94_plain_never",
    "Amqp.Hs.c94_signature",
    "Amqp.Hs.c94_told_apart",
    "Amqp.Hs.c94_sys_perm"
   ],
   "note": "for every execution of the client's handshake; Connect and Io, errors from below AMQP, are not modelled. Violated: a permanent system error of the server (sys-perm) is put down to the client (c94_sys_perm)."
  },
  {
   "property": "C95",
   "status": "partial",
   "theorems": [
    "Amqp.Wrap.c95_before",
    "Amqp.Wrap.c95_taken",
    "Amqp.Wrap.c95_after",
    "Amqp.Wrap.c95_only_after"
   ],
   "note": "for all sequences of changes, before and after the answer. Not modelled: a closure that calls with again on the same wrapper, or panics. Violated: a service that keeps its control frame and calls with after it has answered panics (c95_after)."
  }
 ]
}