{
 "claims": [
  {
   "property": "C01",
   "status": "proved",
   "theorems": [
    "Owamp.Props.C01_mult_exact",
    "Owamp.Props.C01_mult_no_overflow"
   ],
   "note": ""
  },
  {
   "property": "C02",
   "status": "proved",
   "theorems": [
    "Owamp.Props.C02_timespec_roundtrip",
    "Owamp.Props.C02_timeval_roundtrip",
    "Owamp.Props.C02_timespec_value",
    "Owamp.Props.C02_num64_roundtrip",
    "Owamp.Props.C02_toTimespec_value",
    "Owamp.Props.C02_ofTimespec_mono",
    "Owamp.Props.C02_toTimespec_mono",
    "Owamp.Props.C02_usec"
   ],
   "note": ""
  },
  {
   "property": "C03",
   "status": "proved",
   "theorems": [
    "Owamp.Props.C03_timestamp_roundtrip",
    "Owamp.Props.C03_timestamp_surjective",
    "Owamp.Props.C03_errest_roundtrip",
    "Owamp.Props.C03_errest_zero"
   ],
   "note": ""
  },
  {
   "property": "C04",
   "status": "partial",
   "theorems": [
    "Owamp.Props.C04_error_not_understated",
    "Owamp.Props.C04_reuse_sound",
    "Owamp.Props.C04_unknown_error_understated"
   ],
   "note": "Holds for every known clock error; false when no error figure is known (C04_unknown_error_understated)."
  },
  {
   "property": "C05",
   "status": "partial",
   "theorems": [
    "Owamp.Props.C05_error_value_partial",
    "Owamp.Props.C05_error_overflow"
   ],
   "note": "Exact while multiplier*2^scale fits 64 bits; false beyond (C05_error_overflow)."
  },
  {
   "property": "C06",
   "status": "proved",
   "theorems": [
    "Owamp.Props.C06_reset_restores",
    "Owamp.Props.C06_reset_rekeys",
    "Owamp.Props.C06_schedule",
    "Owamp.Props.C06_spec_unique",
    "Owamp.Props.C06_after_last",
    "Owamp.Props.C06_reset_empty_divides_by_zero"
   ],
   "note": ""
  },
  {
   "property": "C07",
   "status": "proved",
   "theorems": [
    "Owamp.Props.C07_slot_cyclic",
    "Owamp.Props.C07_literal_period"
   ],
   "note": ""
  },
  {
   "property": "C08",
   "status": "proved",
   "theorems": [
    "Owamp.Props.C08_counter_stream",
    "Owamp.Props.C08_counter_value"
   ],
   "note": ""
  },
  {
   "property": "C09",
   "status": "proved",
   "theorems": [
    "Owamp.Props.C09_exponential",
    "Owamp.Props.C09_bound",
    "Owamp.Props.C09_spec_unique"
   ],
   "note": ""
  },
  {
   "property": "C10",
   "status": "proved",
   "theorems": [
    "Owamp.Props.C10_greeting",
    "Owamp.Props.C10_setup_response",
    "Owamp.Props.C10_server_start",
    "Owamp.Props.C10_server_start_refused",
    "Owamp.Props.C10_accept_session",
    "Owamp.Props.C10_start_sessions",
    "Owamp.Props.C10_start_ack",
    "Owamp.Props.C10_fetch_session",
    "Owamp.Props.C10_fetch_ack",
    "Owamp.Props.C10_stop_sessions",
    "Owamp.Props.C10_stop_sessions_twoway"
   ],
   "note": ""
  },
  {
   "property": "C11",
   "status": "partial",
   "theorems": [
    "Owamp.Props.C11_request",
    "Owamp.Props.C11_request_twoway",
    "Owamp.Props.C11_accepted_partial",
    "Owamp.Props.C11_reserved_bytes_are_not_checked"
   ],
   "note": "Delivery of every request and refusal of bad digests and unknown slots proved over all byte streams; the reserved-bytes part is false (C11_reserved_bytes_are_not_checked)."
  },
  {
   "property": "C12",
   "status": "partial",
   "theorems": [
    "Owamp.Props.C12_record_partial",
    "Owamp.Props.C12_twoway_record_partial",
    "Owamp.Props.C12_old_versions",
    "Owamp.Props.C12_reading_is_faithful",
    "Owamp.Props.C12_scale_64_is_lost",
    "Owamp.Props.C12_no_multiplier"
   ],
   "note": "Identical for every record whose error estimates fit the two wire bytes; false for scale 64, which the clock code produces (C12_scale_64_is_lost)."
  },
  {
   "property": "C13",
   "status": "proved",
   "theorems": [
    "Owamp.Props.C13_in_step",
    "Owamp.Props.C13_bytes_on_socket"
   ],
   "note": ""
  },
  {
   "property": "C14",
   "status": "proved",
   "theorems": [
    "Owamp.Props.C14_receiver",
    "Owamp.Props.C14_sender",
    "Owamp.Props.C14_honest",
    "Owamp.Props.C14_digest_binds",
    "Owamp.Props.C14_conversation",
    "Owamp.Props.C14_messages",
    "Owamp.Props.C14_stop_sessions"
   ],
   "note": ""
  },
  {
   "property": "C15",
   "status": "partial",
   "theorems": [
    "Owamp.Props.C15_unexpected_told",
    "Owamp.Props.C15_requests_in_order",
    "Owamp.Props.C15_dead_after_refusal_partial",
    "Owamp.Props.C15_type_allowed",
    "Owamp.Props.C15_bad_type_shuts",
    "Owamp.Props.C15_setup_order",
    "Owamp.Props.C15_example",
    "Owamp.Props.C15_twoway_survives_refusal"
   ],
   "note": "Order of requests and dead-after-refusal proved for the one-way server over every byte stream, fault pattern and policy; false for the two-way server, which goes back to the request state after a refusal (C15_twoway_survives_refusal)."
  },
  {
   "property": "C16",
   "status": "partial",
   "theorems": [
    "Owamp.Props.C16_ranges_partial",
    "Owamp.Props.C16_disorder_accepted"
   ],
   "note": "Proved that accepted ranges are the ones in the message and none ends before it begins; order, disjointness and the upper bound are not checked by the code (C16_disorder_accepted)."
  },
  {
   "property": "C17",
   "status": "partial",
   "theorems": [
    "Owamp.Props.C17_named_once_partial",
    "Owamp.Props.C17_exactly_once_if_counts_match",
    "Owamp.Props.C17_omission_accepted"
   ],
   "note": "Proved that no session is named twice and no unknown one is named, and the full claim when the message's count equals the number of receiving sessions; false otherwise (C17_omission_accepted)."
  },
  {
   "property": "C18",
   "status": "partial",
   "theorems": [
    "Owamp.Props.C18_one_mode_partial",
    "Owamp.Props.C18_unoffered_accepted"
   ],
   "note": "Single known mode, non-empty offer and policy consent proved for every response; membership in the offered set is false (C18_unoffered_accepted), and holds between the library's own client and server (C20_keys_agree)."
  },
  {
   "property": "C19",
   "status": "proved",
   "theorems": [
    "Owamp.Props.C19_strongest_mode"
   ],
   "note": ""
  },
  {
   "property": "C20",
   "status": "proved",
   "theorems": [
    "Owamp.Props.C20_proof_of_secret",
    "Owamp.Props.C20_replay_refused",
    "Owamp.Props.C20_keys_agree",
    "Owamp.Props.C20_exchange_example"
   ],
   "note": ""
  },
  {
   "property": "C21",
   "status": "partial",
   "theorems": [
    "Owamp.Props.C21_oneway_partial",
    "Owamp.Props.C21_twoway_third_party"
   ],
   "note": "Proved for one-way sessions over every input and environment; false for two-way sessions (C21_twoway_third_party)."
  },
  {
   "property": "C22",
   "status": "partial",
   "theorems": [
    "Owamp.Props.C22_accounted_partial",
    "Owamp.Props.C22_uninterrupted",
    "Owamp.Props.C22_example",
    "Owamp.Props.C22_zero_packets"
   ],
   "note": "Proved for every session of at least one packet, every clock, signal and network behaviour; false for npackets = 0 (C22_zero_packets)."
  },
  {
   "property": "C23",
   "status": "proved",
   "theorems": [
    "Owamp.Props.C23_canonical",
    "Owamp.Props.C23_reported",
    "Owamp.Props.C23_example"
   ],
   "note": ""
  },
  {
   "property": "C24",
   "status": "proved",
   "theorems": [
    "Owamp.Props.C24_one_verdict",
    "Owamp.Props.C24_complete",
    "Owamp.Props.C24_final",
    "Owamp.Props.C24_example"
   ],
   "note": ""
  },
  {
   "property": "C25",
   "status": "partial",
   "theorems": [
    "Owamp.Props.C25_lost_after_timeout_partial",
    "Owamp.Props.C25_scheduled_time",
    "Owamp.Props.C25_stopped_in_flush"
   ],
   "note": "Proved when the stop signal does not arrive inside a flush; otherwise false (C25_stopped_in_flush). That lost records carry the scheduled time is proved without assumption."
  },
  {
   "property": "C26",
   "status": "partial",
   "theorems": [
    "Owamp.Props.C26_only_genuine_partial",
    "Owamp.Props.C26_digest",
    "Owamp.Props.C26_rejected_unchanged",
    "Owamp.Props.C26_timely_recorded",
    "Owamp.Props.C26_rejected_fatal",
    "Owamp.Props.C26_stranger_fatal"
   ],
   "note": "Scheduled-time comparison is proved up to 5 units of 2^-32 s (timespec round trip). Some rejected datagrams end the session and destroy its results: C26_rejected_fatal, C26_stranger_fatal."
  },
  {
   "property": "C27",
   "status": "partial",
   "theorems": [
    "Owamp.Props.C27_due_have_verdict_partial",
    "Owamp.Props.C27_stopped_before_flush"
   ],
   "note": "Proved for the packets due at the last clock reading that was followed by a flush; false for packets that fall due after it: C27_stopped_before_flush."
  },
  {
   "property": "C28",
   "status": "proved",
   "theorems": [
    "Owamp.Props.C28_oneway_understood",
    "Owamp.Props.C28_twoway_understood",
    "Owamp.Props.C28_layout",
    "Owamp.Props.C28_example",
    "Owamp.Props.C28_example_refused",
    "Owamp.Props.C28_sender_run"
   ],
   "note": ""
  },
  {
   "property": "C29",
   "status": "proved",
   "theorems": [
    "Owamp.Props.C29_oneway",
    "Owamp.Props.C29_twoway",
    "Owamp.Props.C29_linked"
   ],
   "note": ""
  },
  {
   "property": "C30",
   "status": "partial",
   "theorems": [
    "Owamp.Props.C30_kept_partial",
    "Owamp.Props.C30_cleans_partial",
    "Owamp.Props.C30_unflushed"
   ],
   "note": "An answer True means exactly the right records, for every sorted plausible record list, if the temporary stream is flushed or no record is kept after a dropped one (else C30_unflushed). The clean-up succeeds, or fails on a contradiction, under the conditions of C31."
  },
  {
   "property": "C31",
   "status": "partial",
   "theorems": [
    "Owamp.Props.C31_search_partial",
    "Owamp.Props.C31_safe",
    "Owamp.Props.C31_zero_timeout",
    "Owamp.Props.C31_never_ends"
   ],
   "note": "Ends inside the file when no record was made exactly at the threshold (else C31_never_ends), the threshold is before the stop time (else C31_zero_timeout) and floating-point interpolation stays inside its interval; never skips a record to drop, without these assumptions."
  },
  {
   "property": "C32",
   "status": "partial",
   "theorems": [
    "Owamp.Props.C32_layout",
    "Owamp.Props.C32_header_partial",
    "Owamp.Props.C32_scope_lost",
    "Owamp.Props.C32_twoway_conf_sender",
    "Owamp.Props.C32_slot_count_wraps"
   ],
   "note": "Round trip proved for every header that can be stored and whose offsets fit 32 bits; false for IPv6 scopes (C32_scope_lost), conf_sender of two-way sessions (C32_twoway_conf_sender), 2^28-1 slots (C32_slot_count_wraps)."
  },
  {
   "property": "C33",
   "status": "partial",
   "theorems": [
    "Owamp.Props.C33_records_partial",
    "Owamp.Props.C33_all_records",
    "Owamp.Props.C33_twoway_records_partial",
    "Owamp.Props.C33_twoway_overflow"
   ],
   "note": "Proved for records whose stamps can be stored (multiplier not 0, 6-bit scale; others are C12's business); OWPParseRecords given a two-way file overruns its buffer (C33_twoway_overflow)."
  },
  {
   "property": "C34",
   "status": "partial",
   "theorems": [
    "Owamp.Props.C34_crash_partial",
    "Owamp.Props.C34_receiving",
    "Owamp.Props.C34_finished",
    "Owamp.Props.C34_fetched",
    "Owamp.Props.C34_ranges_read_as_records"
   ],
   "note": "Every crash point of the life of a one-way file with at most three skip ranges, of a receiver's file and of a fetched file; false with four ranges (C34_ranges_read_as_records). Clean-up that drops records copies the file: see C30."
  },
  {
   "property": "C35",
   "status": "partial",
   "theorems": [
    "Owamp.Props.C35_diskspace_partial",
    "Owamp.Props.C35_estimate_wraps"
   ],
   "note": "Proved for files below 2^32 bytes; false above (C35_estimate_wraps)."
  },
  {
   "property": "C36",
   "status": "partial",
   "theorems": [
    "Owamp.Props.C36_fetch_partial",
    "Owamp.Props.C36_finished",
    "Owamp.Props.C36_complete",
    "Owamp.Props.C36_range",
    "Owamp.Props.C36_skip_count_wraps",
    "Owamp.Props.C36_unfinished_is_cut",
    "Owamp.Props.C36_cut_off"
   ],
   "note": "Full statement for sessions that finished normally (C36_finished); unfinished sessions are cut at the last packet that arrived (C36_unfinished_is_cut); fewer than 2^28-1 slots and 2^29 skip ranges; link-local sessions only over a link-local control connection."
  },
  {
   "property": "C37",
   "status": "partial",
   "theorems": [
    "Owamp.Props.C37_framing_partial",
    "Owamp.Props.C37_slot_count_wraps"
   ],
   "note": "Every n, m; k below 2^28-1, where the property fails (C37_slot_count_wraps)."
  },
  {
   "property": "C38",
   "status": "partial",
   "theorems": [
    "Owamp.Props.C38_complete_refused",
    "Owamp.Props.C38_failed_partial",
    "Owamp.Props.C38_failed_seen_otherwise",
    "Owamp.Props.C38_failed_in_between",
    "Owamp.Props.C38_refusal_told"
   ],
   "note": "First half proved outright (C38_complete_refused), for every behaviour of concurrent writers. Second half false: C38_failed_in_between; C38_failed_partial and C38_failed_seen_otherwise are what holds."
  },
  {
   "property": "C39",
   "status": "partial",
   "theorems": [
    "Owamp.Props.C39_daemon_partial",
    "Owamp.Props.C39_within_partial",
    "Owamp.Props.C39_near_partial",
    "Owamp.Props.C39_claims_partial",
    "Owamp.Props.C39_overflow",
    "Owamp.Props.C39_rounding"
   ],
   "note": "Within the limit exactly for limits below 2^53 and amounts below 2^63, within 2048 for limits below 2^62 (the comparison is one of doubles and the sum one of 64 bit integers); claims stay within the limit times diskfudge. C39_rounding and C39_overflow are counter-examples beyond these sizes."
  },
  {
   "property": "C40",
   "status": "partial",
   "theorems": [
    "Owamp.Props.C40_denied",
    "Owamp.Props.C40_restored_partial",
    "Owamp.Props.C40_overflow"
   ],
   "note": "A denied demand changes nothing (C40_denied, no restriction). A grant followed by the release of the same amount restores all counters if no counter overflows; C40_overflow is a counter-example with overflow."
  },
  {
   "property": "C41",
   "status": "proved",
   "theorems": [
    "Owamp.Props.C41_file",
    "Owamp.Props.C41_inherits",
    "Owamp.Props.C41_refused",
    "Owamp.Props.C41_root",
    "Owamp.Props.C41_wellFormed"
   ],
   "note": ""
  },
  {
   "property": "C42",
   "status": "partial",
   "theorems": [
    "Owamp.Props.C42_assignments",
    "Owamp.Props.C42_longest_partial",
    "Owamp.Props.C42_mapped"
   ],
   "note": "Longest matching network, default class and first class proved for every limits file and every address; false for IPv6 networks containing mapped IPv4 addresses (C42_mapped)."
  },
  {
   "property": "C43",
   "status": "partial",
   "theorems": [
    "Owamp.Props.C43_user_partial",
    "Owamp.Props.C43_open",
    "Owamp.Props.C43_padding",
    "Owamp.Props.C43_named"
   ],
   "note": "Proved for a zero-filled user field if no class is named like the user; false otherwise (C43_padding, C43_named)."
  },
  {
   "property": "C44",
   "status": "partial",
   "theorems": [
    "Owamp.Props.C44_query",
    "Owamp.Props.C44_query_only",
    "Owamp.Props.C44_damaged",
    "Owamp.Props.C44_class",
    "Owamp.Props.C44_class_only",
    "Owamp.Props.C44_response",
    "Owamp.Props.C44_response_only",
    "Owamp.Props.C44_answers_partial",
    "Owamp.Props.C44_stale",
    "Owamp.Props.C44_own_class"
   ],
   "note": "Proved: every frame is read as it was written and only such frames are read, for both byte orders; a demand is charged to the class its own process announced; uninterrupted processes read the daemon's decisions. Missing: interrupted waits, where it is false (C44_stale)."
  },
  {
   "property": "C45",
   "status": "partial",
   "theorems": [
    "Owamp.Props.C45_balance_partial",
    "Owamp.Props.C45_returned_partial",
    "Owamp.Props.C45_recorded",
    "Owamp.Props.C45_class_partial",
    "Owamp.Props.C45_lost_answer",
    "Owamp.Props.C45_unknown_size"
   ],
   "note": "Proved for every history of requests and ends, for any daemon that answers (Honest) and for the modelled daemon; false when an answer is lost or fstat fails (C45_lost_answer, C45_unknown_size)."
  },
  {
   "property": "C46",
   "status": "partial",
   "theorems": [
    "Owamp.Props.C46_only_partial",
    "Owamp.Props.C46_part",
    "Owamp.Props.C46_deleted",
    "Owamp.Props.C46_unsent"
   ],
   "note": "False in one point: deleted before the last digest is sent (C46_unsent); C46_only_partial, C46_part and C46_deleted are the rest."
  },
  {
   "property": "C47",
   "status": "partial",
   "theorems": [
    "Owamp.Props.C47_max",
    "Owamp.Props.C47_count",
    "Owamp.Props.C47_freed",
    "Owamp.Props.C47_seen_partial",
    "Owamp.Props.C47_accepted_partial",
    "Owamp.Props.C47_lost",
    "Owamp.Props.C47_memory"
   ],
   "note": "Proved for all histories with memory available: never more processes than the maximum (C47_max), waiting frees the place of every ended process (C47_freed), and if no process ends just before the flag is reset, ended processes are waited for and a free place is found. False without these conditions (C47_lost, C47_memory)."
  },
  {
   "property": "C48",
   "status": "partial",
   "theorems": [
    "Owamp.Props.C48_only_demands",
    "Owamp.Props.C48_returned_partial",
    "Owamp.Props.C48_bandwidth"
   ],
   "note": "False: C48_bandwidth. Proved: what is in use depends on the demands only; if ended processes gave back what they held, what is in use is what running processes hold."
  },
  {
   "property": "C49",
   "status": "partial",
   "theorems": [
    "Owamp.Props.C49_latest_partial",
    "Owamp.Props.C49_set",
    "Owamp.Props.C49_long_keys",
    "Owamp.Props.C49_failed_store"
   ],
   "note": "Keys of at most 64 bytes; a failing store removes the old value (C49_failed_store)."
  },
  {
   "property": "C50",
   "status": "proved",
   "theorems": [
    "Owamp.Props.C50_counts",
    "Owamp.Props.C50_receiver_lostOnce",
    "Owamp.Props.C50_complete"
   ],
   "note": "C50_counts: for every record list in which no packet is recorded lost twice and every earlier use of the object; C50_receiver_lostOnce: receivers write no other; C50_complete: complete sessions."
  },
  {
   "property": "C51",
   "status": "proved",
   "theorems": [
    "Owamp.Props.C51_percentile"
   ],
   "note": "The multiplication of floating point numbers and the bucket of a delay are parameters."
  },
  {
   "property": "C52",
   "status": "partial",
   "theorems": [
    "Owamp.Props.C52_reordering",
    "Owamp.Props.C52_shares_partial",
    "Owamp.Props.C52_second_share"
   ],
   "note": "Counts: proved for every object and range (C52_reordering). The printed shares are right for a fresh object only (C52_shares_partial, witness C52_second_share)."
  },
  {
   "property": "C53",
   "status": "partial",
   "theorems": [
    "Owamp.Props.C53_orderly_partial",
    "Owamp.Props.C53_second_from_zero",
    "Owamp.Props.C53_same_answer",
    "Owamp.Props.C53_receiver_orderly",
    "Owamp.Props.C53_receiver_partial",
    "Owamp.Props.C53_wrap",
    "Owamp.Props.C53_file_partial"
   ],
   "note": "Proved for records of the receiver model and the files made of them between 1970 and 2036 and for ranges that do not restart at packet 0 with a used object; witnesses C53_second_from_zero, C53_wrap."
  },
  {
   "property": "C54",
   "status": "partial",
   "theorems": [
    "Owamp.Props.C54_parse",
    "Owamp.Props.C54_documented_partial",
    "Owamp.Props.C54_written",
    "Owamp.Props.C54_zero_refused",
    "Owamp.Props.C54_tools_take",
    "Owamp.Props.C54_tail_ignored",
    "Owamp.Props.C54_stream_two_ports",
    "Owamp.Props.C54_inside_partial",
    "Owamp.Props.C54_search_partial",
    "Owamp.Props.C54_reflector_open",
    "Owamp.Props.C54_asked",
    "Owamp.Props.C54_ephemeral",
    "Owamp.Props.C54_beyond_range",
    "Owamp.Props.C54_never_ends",
    "Owamp.Props.C54_undefined",
    "Owamp.Props.C54_full_range"
   ],
   "note": "Reading is characterised for every text; the search for every answer of bind and every random number but 0xffffffff. Witnesses: single 0 refused, text after a range ignored, port after the range, endless search, range 0-65535."
  },
  {
   "property": "C55",
   "status": "partial",
   "theorems": [
    "Owamp.Props.C55_active",
    "Owamp.Props.C55_history",
    "Owamp.Props.C55_status",
    "Owamp.Props.C55_status_stale",
    "Owamp.Props.C55_nobody_left",
    "Owamp.Props.C55_stop_partial",
    "Owamp.Props.C55_failure_forgotten",
    "Owamp.Props.C55_twoway_never_ok",
    "Owamp.Props.C55_twoway_forgotten",
    "Owamp.Props.C55_local_verdict"
   ],
   "note": "Counting and status for every list and every history of process ends; after stopping, every child has been waited for; OWPErrOK means that none died by a signal; the local verdict before the peer's message arrives is the worst case. False of the code: the peer's accept value replaces the local verdict, and the two-way client never gets OWPErrOK."
  },
  {
   "property": "C56",
   "status": "proved",
   "theorems": [
    "Owamp.Props.C56_client",
    "Owamp.Props.C56_client_ok",
    "Owamp.Props.C56_server",
    "Owamp.Props.C56_both"
   ],
   "note": "Order of start message, starts and answer on each side for every outcome; joint theorem over every interleaving of client and server in which an answer is read after it was sent."
  },
  {
   "property": "C57",
   "status": "proved",
   "theorems": [
    "Owamp.Props.C57_reflected",
    "Owamp.Props.C57_any",
    "Owamp.Props.C57_example"
   ],
   "note": ""
  },
  {
   "property": "C58",
   "status": "proved",
   "theorems": [
    "Owamp.Props.C58_is_aes",
    "Owamp.Props.C58_decrypt_encrypt",
    "Owamp.Props.C58_injective",
    "Owamp.Props.C58_encrypt_decrypt"
   ],
   "note": ""
  },
  {
   "property": "C59",
   "status": "partial",
   "theorems": [
    "Owamp.Props.C59_payload_partial",
    "Owamp.Props.C59_emitted_partial",
    "Owamp.Props.C59_reader_enough",
    "Owamp.Props.C59_reply_enough",
    "Owamp.Props.C59_allocated_partial",
    "Owamp.Props.C59_reply_mismatch",
    "Owamp.Props.C59_reply_length_partial",
    "Owamp.Props.C59_check_never_fires",
    "Owamp.Props.C59_wraps",
    "Owamp.Props.C59_wraps_iff",
    "Owamp.Props.C59_packet_partial",
    "Owamp.Props.C59_rate_partial",
    "Owamp.Props.C59_rate_literal_partial",
    "Owamp.Props.C59_no_delay_is_free",
    "Owamp.Props.C59_sum_wraps",
    "Owamp.Props.C59_demand_example",
    "Owamp.Props.C59_demand_partial"
   ],
   "note": "Payload, packet and reply sizes, allocation and rates for all modes and all paddings that do not wrap; the packets emitted have that length; reading depends on no byte beyond the header size; for literal slots rate times time is the number of packets. False of the code: paddings near 2^32, reply length with padding, schedules without delay. Rates are exact rationals, not doubles."
  },
  {
   "property": "C60",
   "status": "proved",
   "theorems": [
    "Owamp.Props.C60_timespec_arith",
    "Owamp.Props.C60_getTimespec"
   ],
   "note": ""
  },
  {
   "property": "C61",
   "status": "partial",
   "theorems": [
    "Owamp.Props.C61_overrun",
    "Owamp.Props.C61_lines_partial",
    "Owamp.Props.C61_capacity"
   ],
   "note": "No more than five limits per class for every file; no overrun if each part after 'with' has an equals sign; false otherwise (C61_overrun)."
  },
  {
   "property": "C62",
   "status": "proved",
   "theorems": [
    "Owamp.Props.C62_granted",
    "Owamp.Props.C62_not_reached"
   ],
   "note": "test_sessions limits per control connection; limits below 2^53."
  },
  {
   "property": "C63",
   "status": "partial",
   "theorems": [
    "Owamp.Props.C63_ignored",
    "Owamp.Props.C63_not_honoured"
   ],
   "note": "False: C63_ignored proves that the count is always 2048, C63_not_honoured that a configured one is not used."
  },
  {
   "property": "C64",
   "status": "proved",
   "theorems": [
    "Owamp.Props.C64_next_offset",
    "Owamp.Props.C64_next_range",
    "Owamp.Props.C64_chain",
    "Owamp.Props.C64_file_chain"
   ],
   "note": "C64_chain over any number of ranges and growing files; C64_file_chain on file bytes."
  },
  {
   "property": "C65",
   "status": "partial",
   "theorems": [
    "Owamp.Props.C65_figures",
    "Owamp.Props.C65_ttl_partial",
    "Owamp.Props.C65_all_ttls"
   ],
   "note": "All figures (C65_figures); the number of TTL values is wrong when all 256 occur (C65_all_ttls)."
  },
  {
   "property": "C66",
   "status": "partial",
   "theorems": [
    "Owamp.Props.C66_received_kept_partial",
    "Owamp.Props.C66_trailing_stay",
    "Owamp.Props.C66_lock_kept",
    "Owamp.Props.C66_failed",
    "Owamp.Props.C66_trailing_example",
    "Owamp.Props.C66_sessions",
    "Owamp.Props.C66_stops_at_failure",
    "Owamp.Props.C66_twoway"
   ],
   "note": "Every received record that C30 keeps stays, in order, and nothing C30 drops comes back; the file is marked incomplete and unlocked when a record with a number above 0 is kept. False in general: trailing lost records stay (C66_trailing_stay), the lock is kept on empty files (C66_lock_kept), a failing session stops the clean-up (C66_stops_at_failure). Failures of system calls are not modelled."
  },
  {
   "property": "C67",
   "status": "partial",
   "theorems": [
    "Owamp.Props.C67_one_verdict",
    "Owamp.Props.C67_lost_partial",
    "Owamp.Props.C67_passed",
    "Owamp.Props.C67_example",
    "Owamp.Props.C67_stopped_in_flush"
   ],
   "note": "One verdict, order and lost-after-send are proved outright; lost-after-timeout is proved when no stop is noticed inside a flush, with a run showing it fails otherwise."
  },
  {
   "property": "C68",
   "status": "partial",
   "theorems": [
    "Owamp.Props.C68_complete_partial",
    "Owamp.Props.C68_complete_expired",
    "Owamp.Props.C68_stopped",
    "Owamp.Props.C68_undisturbed",
    "Owamp.Props.C68_defined",
    "Owamp.Props.C68_interrupt_marked",
    "Owamp.Props.C68_undefined",
    "Owamp.Props.C68_forged_end",
    "Owamp.Props.C68_short_end",
    "Owamp.Props.C68_interrupted",
    "Owamp.Props.C68_skipped_unrecorded"
   ],
   "note": "The full statement is false of the code (six witnesses); proved: what may be missing at the end and why (C68_complete_partial and corollaries), that an undisturbed test deals with every packet, and that the only undefined behaviour is the unset flush_rc."
  },
  {
   "property": "C69",
   "status": "partial",
   "theorems": [
    "Owamp.Props.C69_genuine",
    "Owamp.Props.C69_recorded",
    "Owamp.Props.C69_zero_time",
    "Owamp.Props.C69_padded",
    "Owamp.Props.C69_padded_example"
   ],
   "note": "Soundness of recorded replies is proved for all runs; completeness for undisturbed passes (C69_recorded). Padded sessions break it (C69_padded) and a receive time of 0 misleads readers (C69_zero_time). There is no check of the address a reply comes from."
  },
  {
   "property": "C70",
   "status": "proved",
   "theorems": [
    "Owamp.Props.C70_sent",
    "Owamp.Props.C70_understood"
   ],
   "note": "Proved for all runs; the interval of sending times is (due, due + timeout]."
  },
  {
   "property": "C71",
   "status": "partial",
   "theorems": [
    "Owamp.Props.C71_answered",
    "Owamp.Props.C71_numbered",
    "Owamp.Props.C71_contents",
    "Owamp.Props.C71_genuine_partial",
    "Owamp.Props.C71_number_fits",
    "Owamp.Props.C71_ends",
    "Owamp.Props.C71_replied_partial",
    "Owamp.Props.C71_round_trip",
    "Owamp.Props.C71_example",
    "Owamp.Props.C71_round_trip_example",
    "Owamp.Props.C71_stale",
    "Owamp.Props.C71_stranger_ends",
    "Owamp.Props.C71_stopped_fails"
   ],
   "note": "Proved for every run: peer, order, numbering, contents (C71_contents), the end, and the round trip with the sender of C70. Partial: that what is answered is what was received needs that no short datagram arrives with errno at EINTR (C71_stale shows it fails otherwise); a packet is answered if nothing disturbs the pass (a stop signal or a wrong-sized datagram from anyone ends the process, C71_stranger_ends, C71_stopped_fails)."
  },
  {
   "property": "C72",
   "status": "partial",
   "theorems": [
    "Owamp.Props.C72_values",
    "Owamp.Props.C72_undisturbed",
    "Owamp.Props.C72_wake_partial",
    "Owamp.Props.C72_blocks",
    "Owamp.Props.C72_nobody_left",
    "Owamp.Props.C72_agreed",
    "Owamp.Props.C72_noticed_partial",
    "Owamp.Props.C72_at_once",
    "Owamp.Props.C72_example",
    "Owamp.Props.C72_error_as_zero",
    "Owamp.Props.C72_lost_wakeup",
    "Owamp.Props.C72_wake_wraps",
    "Owamp.Props.C72_clock_error"
   ],
   "note": "Return values, undisturbed sessions, nobody left and agreement for every history. Partial: the time to wake for times less than 2^31 ms ahead and a poll that keeps its timeout (C72_wake_wraps); the end of sessions is noticed when poll is interrupted (C72_lost_wakeup); errors while stopping are returned as 0 (C72_error_as_zero)."
  },
  {
   "property": "C73",
   "status": "partial",
   "theorems": [
    "Owamp.Props.C73_sessions_partial",
    "Owamp.Props.C73_summaries_partial",
    "Owamp.Props.C73_early_partial",
    "Owamp.Props.C73_follows",
    "Owamp.Props.C73_anew",
    "Owamp.Props.C73_example",
    "Owamp.Props.C73_early_example",
    "Owamp.Props.C73_anew_example",
    "Owamp.Props.C73_skip_begin",
    "Owamp.Props.C73_setup_failure",
    "Owamp.Props.C73_session_moved",
    "Owamp.Props.C73_fetch_signal"
   ],
   "note": "False of the code after a failed set-up and for the first packet of a skip range (C73_setup_failure, C73_session_moved, C73_skip_begin); proved without these, and the succession of sessions without condition."
  },
  {
   "property": "C74",
   "status": "partial",
   "theorems": [
    "Owamp.Props.C74_data",
    "Owamp.Props.C74_data_written",
    "Owamp.Props.C74_kept_partial",
    "Owamp.Props.C74_printed_partial",
    "Owamp.Props.C74_session_partial",
    "Owamp.Props.C74_incomplete",
    "Owamp.Props.C74_printed_missing",
    "Owamp.Props.C74_printed_unset",
    "Owamp.Props.C74_left_behind",
    "Owamp.Props.C74_leftover",
    "Owamp.Props.C74_example"
   ],
   "note": "Data files: proved at every moment. Summaries are visible before they are complete and names are printed of files that do not exist (C74_incomplete, C74_printed_missing, C74_printed_unset, C74_leftover); proved under the conditions these name."
  },
  {
   "property": "C75",
   "status": "partial",
   "theorems": [
    "Owamp.Props.C75_counts_partial",
    "Owamp.Props.C75_delays",
    "Owamp.Props.C75_errors_ttls",
    "Owamp.Props.C75_percentile_partial",
    "Owamp.Props.C75_example",
    "Owamp.Props.C75_synchronised",
    "Owamp.Props.C75_end_time",
    "Owamp.Props.C75_lost_twice"
   ],
   "note": "Proved for every file, range and order of records outside skip ranges (two-way tests write none), when the summary succeeds: counts, duplicates, the four delays, percentiles, errors, TTLs, start. Counts assume each packet has at most one record of loss (C75_lost_twice is the witness otherwise). False of the code, with witnesses: the report on clocks ignores replies (C75_synchronised), the end of the period can be that of an earlier packet (C75_end_time). Real arithmetic exact; delays, buckets and alpha*sent are parameters."
  },
  {
   "property": "C76",
   "status": "partial",
   "theorems": [
    "Owamp.Props.C76_in_step_partial",
    "Owamp.Props.C76_refused",
    "Owamp.Props.C76_crossed",
    "Owamp.Props.C76_late",
    "Owamp.Props.C76_renumbered"
   ],
   "note": "False of the code: results written by the modelled test itself are refused when two packets overtake each other both ways (C76_crossed) or late packets' replies cross (C76_late), and a range of packets is refused after a loss on the way out (C76_renumbered). Proved: sessions in step can be summarised (C76_in_step_partial), and every refusal has one of the stated reasons; internal checks never fail (C76_refused)."
  },
  {
   "property": "C77",
   "status": "partial",
   "theorems": [
    "Owamp.Props.C77_addresses",
    "Owamp.Props.C77_list",
    "Owamp.Props.C77_outcomes",
    "Owamp.Props.C77_agree",
    "Owamp.Props.C77_refused",
    "Owamp.Props.C77_history_partial",
    "Owamp.Props.C77_asked",
    "Owamp.Props.C77_misfit",
    "Owamp.Props.C77_example",
    "Owamp.Props.C77_orphan"
   ],
   "note": "All outcomes of both sides for every request, and by induction over requests. Missing: false of the code when a step of the client's own fails after the server agreed (C77_orphan)."
  },
  {
   "property": "C78",
   "status": "partial",
   "theorems": [
    "Owamp.Props.C78_number",
    "Owamp.Props.C78_name_partial",
    "Owamp.Props.C78_accepted",
    "Owamp.Props.C78_packets",
    "Owamp.Props.C78_unsupported",
    "Owamp.Props.C78_lower_case",
    "Owamp.Props.C78_trailing"
   ],
   "note": "Numbers and names, everything accepted characterised, packets and report; names AFxy with a small first letter are refused (C78_lower_case)."
  },
  {
   "property": "C79",
   "status": "partial",
   "theorems": [
    "Owamp.Props.C79_schedule",
    "Owamp.Props.C79_percentile_partial",
    "Owamp.Props.C79_modes",
    "Owamp.Props.C79_schedule_example",
    "Owamp.Props.C79_percentile_text",
    "Owamp.Props.C79_negative",
    "Owamp.Props.C79_start"
   ],
   "note": "Schedule, modes and start time hold in full. Of the percentiles: every list of numbers from 0 to 100 is accepted as meant, and each accepted element begins with such a number, but text after it is ignored (C79_percentile_text). Intervals below zero are accepted as zero (C79_negative)."
  },
  {
   "property": "C80",
   "status": "partial",
   "theorems": [
    "Owamp.Props.C80_classes",
    "Owamp.Props.C80_charge",
    "Owamp.Props.C80_catalog",
    "Owamp.Props.C80_starts",
    "Owamp.Props.C80_place",
    "Owamp.Props.C80_fetch_partial",
    "Owamp.Props.C80_slash"
   ],
   "note": "C80_charge, C80_catalog, C80_starts and C80_place hold for all class trees and directory trees; C80_fetch_partial leaves out class names with a /, for which the property is false (C80_slash)."
  },
  {
   "property": "C81",
   "status": "partial",
   "theorems": [
    "Owamp.Props.C81_serves_partial",
    "Owamp.Props.C81_install",
    "Owamp.Props.C81_forever",
    "Owamp.Props.C81_plain",
    "Owamp.Props.C81_groups",
    "Owamp.Props.C81_setuid"
   ],
   "note": "C81_serves_partial, C81_install, C81_forever and C81_plain settle users and a group that is given; root's group without -G and supplementary groups are kept (C81_groups), and a set-user-id installation can become root again (C81_setuid)."
  },
  {
   "property": "C82",
   "status": "partial",
   "theorems": [
    "Owamp.Props.C82_one_partial",
    "Owamp.Props.C82_two",
    "Owamp.Props.C82_stale"
   ],
   "note": "C82_one_partial holds for servers with -Z; false for servers that detach themselves (C82_two, C82_stale)."
  },
  {
   "property": "C83",
   "status": "partial",
   "theorems": [
    "Owamp.Props.C83_leaves_partial",
    "Owamp.Props.C83_ends_partial",
    "Owamp.Props.C83_prompt_partial",
    "Owamp.Props.C83_children",
    "Owamp.Props.C83_unnoticed",
    "Owamp.Props.C83_stuck",
    "Owamp.Props.C83_zero",
    "Owamp.Props.C83_late"
   ],
   "note": "C83_children holds in full; C83_leaves_partial, C83_ends_partial, C83_prompt_partial leave out signals in the windows shown by C83_unnoticed, C83_stuck, C83_late, and dieby 0 (C83_zero)."
  },
  {
   "property": "C84",
   "status": "partial",
   "theorems": [
    "Owamp.Props.C84_counts",
    "Owamp.Props.C84_delays",
    "Owamp.Props.C84_histogram",
    "Owamp.Props.C84_ttls_partial",
    "Owamp.Props.C84_all_ttls",
    "Owamp.Props.C84_no_ttl",
    "Owamp.Props.C84_reordering_partial",
    "Owamp.Props.C84_beyond_row",
    "Owamp.Props.C84_beyond",
    "Owamp.Props.C84_came_ttls_partial"
   ],
   "note": "Missing: TTL values when all 256 occur or when no packet came, and reordering beyond the size of the buffers, for which the report is wrong (C84_all_ttls, C84_no_ttl, C84_beyond)."
  },
  {
   "property": "C85",
   "status": "partial",
   "theorems": [
    "Owamp.Props.C85_times_partial",
    "Owamp.Props.C85_fraction",
    "Owamp.Props.C85_heading",
    "Owamp.Props.C85_unit_partial",
    "Owamp.Props.C85_seconds",
    "Owamp.Props.C85_figures",
    "Owamp.Props.C85_hops_partial",
    "Owamp.Props.C85_hops_wrong",
    "Owamp.Props.C85_reordering_partial"
   ],
   "note": "Proved for all sessions: heading, counts, delays, variation, percentiles, and times, unit, hops and reordering with the exceptions that the code shows: a time in the last half millisecond of a second (C85_fraction), seconds as the unit (C85_seconds), all 256 TTL values (C85_hops_wrong), an object used before (C52_second_share). The texts of floating point numbers are parameters."
  },
  {
   "property": "C86",
   "status": "partial",
   "theorems": [
    "Owamp.Props.C86_texts",
    "Owamp.Props.C86_flags",
    "Owamp.Props.C86_numbers_partial",
    "Owamp.Props.C86_logging",
    "Owamp.Props.C86_fractions",
    "Owamp.Props.C86_ports_partial",
    "Owamp.Props.C86_starts_partial",
    "Owamp.Props.C86_modes",
    "Owamp.Props.C86_cut",
    "Owamp.Props.C86_text_after",
    "Owamp.Props.C86_prefix",
    "Owamp.Props.C86_zero_after",
    "Owamp.Props.C86_warn",
    "Owamp.Props.C86_no_mode"
   ],
   "note": "Proved in full for texts, flags, logging, fractions and modes. Numbers over 32 bits are cut, text behind a number is ignored, two keys match by their beginning, and 0 after a range of ports does not undo it: each shown by a witness theorem, the rest of the claim proved under the matching hypotheses."
  },
  {
   "property": "C87",
   "status": "partial",
   "theorems": [
    "Owamp.Props.C87_first_partial",
    "Owamp.Props.C87_socket",
    "Owamp.Props.C87_contacted",
    "Owamp.Props.C87_record_partial",
    "Owamp.Props.C87_dead",
    "Owamp.Props.C87_neither"
   ],
   "note": "Proved for every list of addresses and every answer of the system; false only for the server's record when the local address cannot be found after connecting (C87_dead)."
  },
  {
   "property": "C88",
   "status": "partial",
   "theorems": [
    "Owamp.Props.C88_first_partial",
    "Owamp.Props.C88_taken"
   ],
   "note": "Proved if no address is in use and address records can be set; C88_taken shows that one address in use makes the server give up and leave a socket open."
  },
  {
   "property": "C89",
   "status": "partial",
   "theorems": [
    "Owamp.Props.C89_server",
    "Owamp.Props.C89_client_partial",
    "Owamp.Props.C89_undefined",
    "Owamp.Props.C89_goes_on",
    "Owamp.Props.C89_let_in",
    "Owamp.Props.C89_both",
    "Owamp.Props.C89_example"
   ],
   "note": "Proved for servers and for what both sides agree on; for clients unless their file has no line for the identity, where the code uses a pointer that was never set (C89_undefined)."
  },
  {
   "property": "C90",
   "status": "partial",
   "theorems": [
    "Owamp.Props.C90_parts_partial",
    "Owamp.Props.C90_reports_partial",
    "Owamp.Props.C90_whole",
    "Owamp.Props.C90_too_many_packets",
    "Owamp.Props.C90_success",
    "Owamp.Props.C90_files",
    "Owamp.Props.C90_announced",
    "Owamp.Props.C90_left_behind",
    "Owamp.Props.C90_limit",
    "Owamp.Props.C90_limited_summary"
   ],
   "note": "False of the code for sessions so large that packets per part times parts reaches 2^32 (the last part is refused), with -v and a number (the summary is cut off as well), and for the unfinished file of a part that fails (witnesses); proved otherwise. The raw output and two-way summaries' figures are not part of it."
  },
  {
   "property": "C91",
   "status": "partial",
   "theorems": [
    "Owamp.Props.C91_status",
    "Owamp.Props.C91_interrupted",
    "Owamp.Props.C91_start",
    "Owamp.Props.C91_reports",
    "Owamp.Props.C91_removed_partial",
    "Owamp.Props.C91_kept",
    "Owamp.Props.C91_no_results",
    "Owamp.Props.C91_file_left",
    "Owamp.Props.C91_owstats",
    "Owamp.Props.C91_owfetch",
    "Owamp.Props.C91_owfetch_status"
   ],
   "note": "proved: what is started, status 0, status 2, what is reported and kept with status 0, owstats, owfetch; partial: results that could not be fetched leave the status 0, a refused session leaves an empty file (witnesses)"
  },
  {
   "property": "C92",
   "status": "partial",
   "theorems": [
    "Owamp.Props.C92_kept",
    "Owamp.Props.C92_begins",
    "Owamp.Props.C92_twoway",
    "Owamp.Props.C92_receiver",
    "Owamp.Props.C92_no_memory"
   ],
   "note": "refinement of a table indexed by packet number, bounded memory and clean-up proved for every history; false only when memory is refused in the middle of a session (C92_no_memory)"
  },
  {
   "property": "C93",
   "status": "partial",
   "theorems": [
    "Owamp.Props.C93_delay",
    "Owamp.Props.C93_trip",
    "Owamp.Props.C93_bucket",
    "Owamp.Props.C93_fits",
    "Owamp.Props.C93_percentile",
    "Owamp.Props.C93_extremes",
    "Owamp.Props.C93_twoway",
    "Owamp.Props.C93_far_clock"
   ],
   "note": "C93_delay, C93_trip, C93_bucket, C93_percentile, C93_extremes, C93_twoway proved; that bucket numbers always are representable is false of the code for clocks more than a day apart (C93_far_clock), C93_fits says when they are"
  },
  {
   "property": "C94",
   "status": "partial",
   "theorems": [
    "Owamp.Props.C94_raw",
    "Owamp.Props.C94_raw_twoway",
    "Owamp.Props.C94_one_reading",
    "Owamp.Props.C94_lost",
    "Owamp.Props.C94_complete_partial",
    "Owamp.Props.C94_complete_twoway_partial",
    "Owamp.Props.C94_written",
    "Owamp.Props.C94_written_twoway",
    "Owamp.Props.C94_cut_silent"
   ],
   "note": "All claims proved, for every file; completeness needs an accepted header: for a file cut short the code prints nothing and reports success (C94_cut_silent)."
  },
  {
   "property": "C95",
   "status": "partial",
   "theorems": [
    "Owamp.Props.C95_lines_partial",
    "Owamp.Props.C95_failed_partial",
    "Owamp.Props.C95_twoway_partial",
    "Owamp.Props.C95_unix_negative"
   ],
   "note": "Proved for all sessions; with UNIX times for numbers below 2^31, since larger numbers are printed negative (C95_unix_negative)."
  },
  {
   "property": "C96",
   "status": "partial",
   "theorems": [
    "Owamp.Props.C96_safe",
    "Owamp.Props.C96_once_partial",
    "Owamp.Props.C96_close_partial",
    "Owamp.Props.C96_finish_partial",
    "Owamp.Props.C96_stop",
    "Owamp.Props.C96_leak"
   ],
   "note": "False of the code after a stop message that leaves out a receiver is accepted (C96_leak); proved for all histories in which accepted messages name as many sessions as receive. Safety and termination (C96_safe) hold for all histories."
  },
  {
   "property": "C97",
   "status": "proved",
   "theorems": [
    "Owamp.Props.C97_records",
    "Owamp.Props.C97_report",
    "Owamp.Props.C97_copies",
    "Owamp.Props.C97_figures",
    "Owamp.Props.C97_program",
    "Owamp.Props.C97_people"
   ],
   "note": "Full property. The conditions (undisturbed, 10 ns, no forged packets from the sender's address) are part of the statement, as Agreed, Undisturbed, Network and Prompt. C97_copies ties the records to the copies on the network, C97_program and C97_people the two texts."
  },
  {
   "property": "C98",
   "status": "proved",
   "theorems": [
    "Owamp.Props.C98_records",
    "Owamp.Props.C98_told",
    "Owamp.Props.C98_report",
    "Owamp.Props.C98_example"
   ],
   "note": "The hypotheses exclude the cases in which C67 \u2013 C71 are false of the code (signals, interrupted or fatal sends, short datagrams, a datagram met while the client is not waiting); packets that are skipped are not counted, as in the code. Delays and TTLs of single records are exact; medians, histograms and TTL tables in terms of trips are C102_trip_delays, C102_trips_partial and C103_trips_partial."
  },
  {
   "property": "C99",
   "status": "partial",
   "theorems": [
    "Owamp.Props.C99_in_turn_or_lapse",
    "Owamp.Props.C99_in_turn_partial",
    "Owamp.Props.C99_silent_after_break",
    "Owamp.Props.C99_example",
    "Owamp.Props.C99_out_of_turn"
   ],
   "note": "C99_in_turn_or_lapse is about all programs: the only messages out of turn are requests for a session or to start sessions while sessions run; C99_in_turn_partial for programs that make none of these. The library does not prevent them: C99_out_of_turn. Assumed of the program's own hooks: they report no fatal error of their own after the server has answered."
  },
  {
   "property": "C100",
   "status": "proved",
   "theorems": [
    "Owamp.Props.C100_sessions",
    "Owamp.Props.C100_fetch",
    "Owamp.Props.C100_fetch_refused",
    "Owamp.Props.C100_opened",
    "Owamp.Props.C100_ask",
    "Owamp.Props.C100_understand",
    "Owamp.Props.C100_example",
    "Owamp.Props.C100_opened_example"
   ],
   "note": "C100_sessions: a round of sessions settles in success whoever ends it; C100_fetch and C100_fetch_refused: fetches; C100_ask: requests for sessions; C100_opened: the beginning; C100_understand: any history of these. In a round the two sides do not both wait for the other's message: each side ends the sessions when its own are over."
  },
  {
   "property": "C101",
   "status": "proved",
   "theorems": [
    "Owamp.Props.C101_sockets",
    "Owamp.Props.C101_told",
    "Owamp.Props.C101_untold",
    "Owamp.Props.C101_foreign",
    "Owamp.Props.C101_taken",
    "Owamp.Props.C101_hops",
    "Owamp.Props.C101_back",
    "Owamp.Props.C101_out",
    "Owamp.Props.C101_sockets_example",
    "Owamp.Props.C101_example",
    "Owamp.Props.C101_crowded",
    "Owamp.Props.C101_foreign_example",
    "Owamp.Props.C101_read",
    "Owamp.Props.C101_trips",
    "Owamp.Props.C101_read_tw"
   ],
   "note": "for systems that report a TTL in one of the two usual forms; a report that does not fit because the system tells something else as well is lost and 255 recorded (C101_crowded). C101_read and C101_read_tw say what is read in the summaries and reports of undisturbed sessions."
  },
  {
   "property": "C102",
   "status": "partial",
   "theorems": [
    "Owamp.Props.C102_trips_partial",
    "Owamp.Props.C102_trip_delays",
    "Owamp.Props.C102_true",
    "Owamp.Props.C102_counts_partial",
    "Owamp.Props.C102_synchronised",
    "Owamp.Props.C102_end_time",
    "Owamp.Props.C102_delays",
    "Owamp.Props.C102_percentiles",
    "Owamp.Props.C102_histogram",
    "Owamp.Props.C102_ttls_partial",
    "Owamp.Props.C102_no_reply",
    "Owamp.Props.C102_all_ttls"
   ],
   "note": "False for the lines SYNC and END_TIME (C102_synchronised, C102_end_time), for the TTL lines if there was no reply (C102_no_reply) and for the TTL table if all 256 values occur on both ways (C102_all_ttls). Counts, errors, delays, medians, variations, both tables are proved for every file of results without skips in which no packet is recorded as lost twice, and for every undisturbed session (C102_true)."
  },
  {
   "property": "C103",
   "status": "partial",
   "theorems": [
    "Owamp.Props.C103_trips_partial",
    "Owamp.Props.C103_figures_partial",
    "Owamp.Props.C103_first_partial",
    "Owamp.Props.C103_end_time",
    "Owamp.Props.C103_synchronised",
    "Owamp.Props.C103_hops_partial",
    "Owamp.Props.C103_all_ttls",
    "Owamp.Props.C103_true"
   ],
   "note": "False for the time of the last packet, for (err=..)/(unsync) and for the hops if all 256 TTL values occur (C103_end_time, C103_synchronised, C103_all_ttls; for times in the last half millisecond of a second see C85_fraction). All other lines are proved for every file of results without skips in which no packet is recorded as lost twice; percentiles for positive shares."
  },
  {
   "property": "C104",
   "status": "partial",
   "theorems": [
    "Owamp.Props.C104_served",
    "Owamp.Props.C104_unserved",
    "Owamp.Props.C104_admitted",
    "Owamp.Props.C104_charged",
    "Owamp.Props.C104_later",
    "Owamp.Props.C104_daemon",
    "Owamp.Props.C104_open_partial",
    "Owamp.Props.C104_open_mode",
    "Owamp.Props.C104_served_example"
   ],
   "note": "False of the code in one respect: C104_open_mode (open mode is served to a class that forbids it); C104_open_partial holds for clients that choose an offered mode. The rest is proved in full: C104_served, C104_unserved, C104_admitted, C104_charged, C104_later, C104_daemon."
  },
  {
   "property": "C105",
   "status": "partial",
   "theorems": [
    "Owamp.Props.C105_timer_partial",
    "Owamp.Props.C105_silent_partial",
    "Owamp.Props.C105_told_waiting",
    "Owamp.Props.C105_told",
    "Owamp.Props.C105_status",
    "Owamp.Props.C105_interrupt",
    "Owamp.Props.C105_graceful",
    "Owamp.Props.C105_two_way_end",
    "Owamp.Props.C105_session_over",
    "Owamp.Props.C105_stop_untimed",
    "Owamp.Props.C105_two_way_untimed",
    "Owamp.Props.C105_lost_alarm",
    "Owamp.Props.C105_lost_end",
    "Owamp.Props.C105_child",
    "Owamp.Props.C105_child_two_way"
   ],
   "note": "False in full: C105_stop_untimed, C105_two_way_untimed, C105_lost_alarm, C105_lost_end, C105_child, C105_child_two_way are histories of the code in which the process is stuck, or ends although nothing is wrong. Proved for every history: the timer is set wherever the process waits outside of a test (C105_timer_partial), its expiry there ends the process within four steps and no further request (C105_silent_partial), the same for signals (C105_told_waiting), at most one more request and fourteen steps after a signal anywhere (C105_told), the exit status (C105_status), and what signals do during a test."
  },
  {
   "property": "C106",
   "status": "partial",
   "theorems": [
    "Owamp.Props.C106_numbers_partial",
    "Owamp.Props.C106_summaries",
    "Owamp.Props.C106_fractions",
    "Owamp.Props.C106_texts",
    "Owamp.Props.C106_flags",
    "Owamp.Props.C106_ports",
    "Owamp.Props.C106_refused",
    "Owamp.Props.C106_end_delay",
    "Owamp.Props.C106_loop",
    "Owamp.Props.C106_alone",
    "Owamp.Props.C106_lock",
    "Owamp.Props.C106_negative",
    "Owamp.Props.C106_truncated",
    "Owamp.Props.C106_empty",
    "Owamp.Props.C106_nan",
    "Owamp.Props.C106_no_wait",
    "Owamp.Props.C106_status"
   ],
   "note": "All options of powstream's command line, its refusals and its lock. Numbers hold for texts that are numbers of 32 bits: negative, longer and empty ones are accepted with another value (C106_negative, C106_truncated, C106_empty); -E is never used (C106_end_delay); -L nan and -i 0 are accepted; an unknown option gives status 0. C106_alone assumes that nobody removes the lock file and that the system grants a lock to one process at a time."
  },
  {
   "property": "C107",
   "status": "partial",
   "theorems": [
    "Owamp.Props.C107_numbers_partial",
    "Owamp.Props.C107_padding_partial",
    "Owamp.Props.C107_asymmetric",
    "Owamp.Props.C107_fractions",
    "Owamp.Props.C107_delay",
    "Owamp.Props.C107_threshold",
    "Owamp.Props.C107_schedule",
    "Owamp.Props.C107_class",
    "Owamp.Props.C107_texts",
    "Owamp.Props.C107_directions",
    "Owamp.Props.C107_shown",
    "Owamp.Props.C107_refused",
    "Owamp.Props.C107_percentiles_partial",
    "Owamp.Props.C107_percentiles_taken",
    "Owamp.Props.C107_no_number",
    "Owamp.Props.C107_unset",
    "Owamp.Props.C107_negative",
    "Owamp.Props.C107_empty",
    "Owamp.Props.C107_two_classes",
    "Owamp.Props.C107_status"
   ],
   "note": "All options of owping and twping and their refusals. Numbers hold for texts that are numbers of 32 bits (else C107_negative, C107_empty, C107_unset); packets and answers of twping are as long only if one mode is allowed (C107_asymmetric shows that they are not with an identity and no -A); a class may follow class 0 (C107_two_classes); an unknown option gives status 0 (C107_status)."
  },
  {
   "property": "C108",
   "status": "proved",
   "theorems": [
    "Owamp.Props.C108_only",
    "Owamp.Props.C108_starts",
    "Owamp.Props.C108_assigned",
    "Owamp.Props.C108_unlimited",
    "Owamp.Props.C108_secretless",
    "Owamp.Props.C108_unreadable"
   ],
   "note": "Each step of OWPDPolicyInstall may fail; the readings of the library (I2ParsePFFile, I2GetConfLine) are what opening a file gives. C108_only and C108_starts characterise success; C108_assigned ties both files together; C108_unlimited and C108_secretless say what a missing file means."
  },
  {
   "property": "C109",
   "status": "partial",
   "theorems": [
    "Owamp.Props.C109_part_partial",
    "Owamp.Props.C109_cut"
   ],
   "note": "Holds for finished sessions, and for others if a packet has arrived that is not before the last of the part; C109_cut shows that else losses at the end of the part are left out. As in C36, schedules have less than 2^28 - 1 slots and there are less than 2^29 skip ranges."
  },
  {
   "property": "C110",
   "status": "proved",
   "theorems": [
    "Owamp.Props.C110_each",
    "Owamp.Props.C110_never_part",
    "Owamp.Props.C110_records",
    "Owamp.Props.C110_parts",
    "Owamp.Props.C110_connections"
   ],
   "note": "after any history; records of finished sessions (of others C36_fetch_partial with its cut)"
  },
  {
   "property": "C111",
   "status": "proved",
   "theorems": [
    "Owamp.Props.C111_setup",
    "Owamp.Props.C111_answers",
    "Owamp.Props.C111_requests",
    "Owamp.Props.C111_stop",
    "Owamp.Props.C111_sent",
    "Owamp.Props.C111_stop_sent",
    "Owamp.Props.C111_server",
    "Owamp.Props.C111_connection",
    "Owamp.Props.C111_client",
    "Owamp.Props.C111_asked"
   ],
   "note": "For every reader of control messages: an accepted message is accepted with anything behind it and leaves that unread, and no proper part of it is accepted; the server hears nothing of a request that arrives in part, and over a whole connection that ends early it hears a prefix; the messages that C10 and C11 say are sent, cut at any byte; and the client's calls (opening a control connection, asking for a session, starting, stopping, waiting) succeed only with all of what the server sends."
  }
 ]
}