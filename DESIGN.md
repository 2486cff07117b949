# Formal model of perfsonar/owamp: design

Paths below are relative to `/repo/owamp/owamp/`.

## 1. How the model is organised

`lean/Verif/` is split in layers:

* `Base/`  : bytes, big-endian integers, C integer wrap-around, list helpers.
* `Model/` : the code, function by function. Each definition cites the file and lines it models
  and says what was simplified.
* `Spec/`  : small vocabulary used to *state* properties, independent of the functions it is about (see section 3).
* `Lemmas/`: proofs' internal steps.
* `Props/` : the property theorems, one section per property id, each with a non-vacuity `example`.

Conventions of the model:

* C unsigned integers are `BitVec n` in records, and `Nat` with explicit `% 2^n` where arithmetic is
  done. Wrap-around is never assumed away.
* A loop is a structural recursion or a fold. Loops that may not end get a step function and a
  relational statement about its iterates.
* Pointers and out-parameters become returned values. Errors are explicit results. Undefined
  behaviour is a distinct outcome.
* The block cipher, the MAC, the clock, the network, the random source and the file system are
  parameters. What is assumed about them is a hypothesis of the theorem, visible in its statement.

## 2. Plan per property

| id | what is modelled | how it is proved |
|----|------------------|------------------|
| C01 | `OWPNum64Mult` limb by limb | arithmetic, equality with `x*y/2^32 % 2^64` |
| C02 | the six conversions in `arithm64.c` | arithmetic over `Nat` |
| C03 | the four encoders/decoders in `time.c` on byte lists | round trip |
| C04 | `OWPTimespecToTimestamp` error loop, encode, decode | loop invariant; negation witness for the no-information case |
| C05 | `OWPGetTimeStampError` in 64-bit arithmetic | exact under no overflow; negation witness otherwise |
| C06 | schedule context as state machine, cipher a parameter | reset and create reach equal states; induction over calls |
| C07 | `GenerateNextDelta` | induction over calls |
| C08 | `OWPUnifRand64` with the 16 counter bytes and cached block | invariant relating state to draw number |
| C09 | `OWPExpContextNext` over an arbitrary stream | case analysis; the `Q` look-up bound is the interesting point |
| C10, C11 | message writers and readers on byte lists | round trips |
| C12 | record codecs | round trip |
| C13 | CBC chaining in both directions | induction over the conversation |
| C14 | HMAC accumulators | invariant over the conversation |
| C15 | control-state bits and every function changing them | invariant over request sequences; negations where code lets states linger |
| C16, C17 | `_OWPReadStopSessions` session matching and skip checks | negation witnesses plus partial theorems |
| C18 | server mode check, daemon offer | negation witness (`|` for `&`), partial theorem |
| C19, C20 | `OWPControlOpen`, `OWPControlAccept` decisions | decision tables, symbolic policy |
| C21 | `OWPProcessTestRequest` decision order | decision logic |
| C22, C23 | `run_sender` main loop, `skip` | invariant over events (clock readings, send outcomes, signals) |
| C24-C27 | `run_receiver`, `flush_lost`, `get_node` | invariant over events; C27 negation witness |
| C28, C57 | packet layouts per mode | round trips |
| C29 | key derivation | both roles equal |
| C30, C31 | `_OWPCleanDataRecs` | scan refines a filter; the search loop gets a non-termination witness and partial theorems |
| C32-C34 | file as byte list; writers as write operations | round trips; every prefix/stage of the file |
| C35 | `OWPTestDiskspace` in 32-bit arithmetic | negation witness and partial |
| C36-C38 | fetch server and client over block streams | refinement to filter; framing equality |
| C39, C40 | class tree and `IntegerResourceDemand` | invariant over operation sequences |
| C41, C42, C43 | limits parser core, address and user look-up | induction on lines; longest prefix; negation witnesses for C43 |
| C44 | broker messages | round trips |
| C45, C46, C48 | test policy, completion, file closing and daemon bookkeeping | life-cycle invariant; negation witnesses |
| C47 | daemon connection counter | invariant |
| C49 | configuration table | refinement to a map |
| C50-C53 | `stats.c` window, counters, histogram, reordering | refinement to counts; negation witnesses for C52, C53; records shown to be those of the receiver model |
| C64 | `OWPStatsParse` with `next_oset`, as `powstream` and `owping` call it | invariant over chains of ranges |
| C65 | `stats.c` times, delays, TTLs, error | refinement to the records; negation witness for the TTL count |
| C66 | `_OWPCleanUpSessions`, `GetMaxRecv` on the files C30 is about | case analysis over the first pass of C30, induction over the second; negation for trailing lost records and for the lock |
| C67 | `run_tw_test` and `flush_lost` for two-way sessions as a step function over passes with arbitrary replies, clock readings, send results, signals | invariant by induction over passes; negation for a stop noticed inside a flush |
| C68 | the same, to the end of the process and the mark it leaves | as C67 plus the analysis of the queue at the end; the full statement fails (see section 4), partial theorems say which packets may lack a record |
| C69 | the same, with the packet formats of C57 | as C67; case analysis of one pass for the converse; negation for padded sessions |
| C70 | the same, with the packets of C28 | as C67; frame invariant of the shared buffer |
| C71 | `run_reflector`: one turn of its loop as a function of what the system calls return; the shared payload buffer | invariant over the turns; contents from the packet theorems of C57; composed with C70 for the round trip |
| C72 | `OWPStopSessionsWait` on top of the model of C55; `poll`, clock, flag and ends of processes as parameters | induction over the stretches of time in `poll` |
| C73 | powstream's main loop as a state machine over its two session records, with `SetupSession`, `sig_check`, `CloseSessions`, `ResetSession`, the end time in `write_session`; clock, set-ups, signals and files as parameters | invariant over the steps linking each file written to the last start of its session |
| C74 | names and contents of files; each routine gives the worlds that come about, one after the other | case analysis over all worlds, with the results of the system calls as parameters |
| C75 | `OWPStatsParse` with the two-way callback: buffers of packets out and back, flushing, counters | invariant over the records read: every buffer node agrees with the records so far; figures as functions of the records |
| C76 | the same, together with the sender of C67 | every refusal traced to a stated cause; absence of the causes for sessions in step; negation by runs of the sender |
| C77 | `Model/Request`: `OWPSessionRequest` with the choice of addresses, the two orders of steps and the exchange with the server; wired to the server's model (`Model/TestRequest`) | `C77_addresses` (choice sound, complete, IPv6 first), `C77_list`, `C77_outcomes` (all outcomes of both sides, from the delivery theorems C10/C11), `C77_agree`, `C77_refused`, `C77_history_partial` by induction over requests |
| C78 | `Model/Dscp`: `parse_typeP` with `strtoul`, the use of `typeP` in `_OWPEndpointInit`, the line of the report | all texts: `C78_number` (any number of digits, any base, by induction over the digits), `C78_name_partial` (the whole table in all spellings), `C78_accepted` (nothing else), `C78_packets`, `C78_unsupported` (bit by bit) |
| C79 | `Model/Options`: `parse_slots`, `parse_percentile`, the letters of -A and the start time in `main` (owping.c); `double` and what is computed with it are parameters (`Floats`) | both readers are shown equivalent to a list of fields joined by commas, each meeting the specification of an element; the table of letters by cases over all bytes and induction over the text; the start time from the laws of C01 |
| C80 | `Model/Restart`: `verify_datadir`, `InitializeDiskUsage`, `node_dir` and the choice of the class for a file that is fetched (policy.c); a directory's contents are a finite tree in the order of `fts_read` | induction over the directory tree: what has been charged to every class is the total of the files read so far that count for it; the paths of class directories are a prefix order that agrees with the subclass order; success is characterised by a second induction |
| C81 | `Model/Privileges`: the choice of user and group and the calls of seteuid, setegid, setgid, setuid in `main` (owampd.c); the calls as in Linux without file capabilities | the result of the whole sequence is computed for a start as root and shown equivalent to the statement; that no later call changes the user by induction over sequences of calls |
| C82 | `Model/Shutdown`: the start of servers as processes that share a lock, a file and addresses (owampd.c) | invariant over all interleavings: whoever is past the lock holds it |
| C83 | `Model/Shutdown`: the main loop and the end of `main` as a state machine with signals between any two steps (owampd.c) | a number that every step of the daemon lowers and no other event raises |
| C84 | `Model/Print`: the report as text (`OWPStatsPrintMachine`, stats.c); the texts of floating point numbers are parameters | reading the text back as lines of fields gives the lines that were written; each line is then tied to the records by C50, C51, C52, C65 |
| C85 | `Model/PrintSummary`: the summary as text (`OWPStatsPrintSummary`, stats.c) and the units; the texts of floating point numbers are parameters, and so is the rounding of nanoseconds to milliseconds in `float`, of which only its greatest error is assumed | reading the text back as lines; each line is then tied to the records by C02, C50, C51, C52, C65 |
| C86 | `Model/Startup`: what `main` and `LoadConfig` of owampd.c do with the configuration file and the options before anything is opened; the file comes as its keys and values (`I2ReadConfVar` is external), names of facilities and `strtod` are parameters | induction over the lines and over the options, one lemma that a step for one key leaves the others alone; the numbers against the specification of numerals of C40 |
| C87 | `Model/Connect`: the attempts over the addresses with their sockets (`_OWPClientConnect`, `TryAddr`, `_OWPClientBind`, capi.c); each address carries what the system answers, which is general because none is tried twice | induction over the addresses with a record of what an attempt leaves behind, and a lemma that joins two lists of attempts |
| C88 | `Model/Connect`: `OpenSocket` and `OWPServerSockCreateCommon` (sapi.c) in the same manner | induction over the addresses |
| C89 | `Model/Secrets`: the hash of pass-phrases of the server (`parsepfs`, `OWPDGetPF`) and how clients find theirs and their modes (`owp_set_auth`); the parser of the files is external | the hash against the lines by induction; the theorems of C20 with the hooks replaced by these |
| C90 | `Model/Reports`: `do_stats` over any statistics object, with results of `fopen` and `link` from outside | arithmetic of the parts outright; induction over the loop with the chain of C64 as invariant; shape of the actions by induction |
| C91 | `Model/Ping`: the part of `main` in owping.c after the options, with every answer of the library and every count of signals from outside | case analysis outright; induction over the files and sessions of `owstats` and `owfetch` |
| C92 | `Model/Pool`: `alloc_node`, `free_node`, `get_node` and the front of the queue on a memory of linked cells, with the hash table as entries whose keys point into the cells | representation invariant (links, free list, arrays, table), refinement of a table indexed by packet number, by induction over histories; also refinement of the lists used in the models of the receiver and of two-way tests |
| C93 | `Model/Buckets`: `OWPDelay` with `OWPNum64ToDouble` as rounding to 53 bits on integers, the number of a bucket as rounding up or down of a quotient in `Rat` rounded by any order-preserving function, conversion to and subtraction of `int` as partial functions | rounding is monotone, near and exact on multiples of 2^11; quantiles commute with monotone maps and move by at most the perturbation; corollaries of C51, C65 and C75 |
| C94 | `Model/Raw`: `printraw`, `printrawTW` and the branch of `do_stats` for `-R`, texts of decimals as parameters | the output as a `flatMap` over what the reader gives; splitting at newlines and blanks is inverse to printing; corollaries of C33 for files as they are written |
| C95 | `Model/Verbose`: the printing parts of `IterateSummarizeSession` and `IterateSummarizeTWSession` beside the summary of `Model/Stats` and `Model/TwStats`, texts of decimals as parameters | the state with output projects to the state without; output is the `flatMap` of lines over the records in range before the first refusal |
| C96 | `Model/Close`: the lists of connections and sessions as memory cells with addresses, loops with a bound on rounds whose exhaustion is an error, use of freed cells an error; operations as an inductive type | a representation invariant (disjoint chains that cover all cells, and what has been lost) kept by each operation; a balance between events seen and sessions still listed; more rounds give the same result |
| C97 | the models of the sender (C22), the packets (C28), the receiver (C24 – C26) and the summary (C50, C53), run one after the other; the network is any list of turns of the receiver in which datagrams from the sender's address have bytes the sender handed over | induction over the turns: a flush passes only expired packets, and a turn adds one record of arrival for packet k exactly if it brings a copy of k in time; induction over the sender's run: the receiver reads number and time of each call from its bytes; then the counts of C50. The records of arrivals, in order, are the copies in time, in order (induction over the turns, `Verif/Lemmas/Trips.lean`); with that C52, C65, C84 and C85 speak of the copies |
| C98 | the models of the client's test process (C67 – C70), the reflector (C71), the codec (C12) and the two-way summary (C75); the network is any lists of passes of the two ends in which datagrams between them have bytes that the other handed over, replies not before their packets | induction over the client's passes: sending times ascend, a flush passes exactly the packets whose time is over, so a pass adds a record exactly if it brings a reply in time; what is in it follows from C70 and C71; at the end no packet is held up (C68); then the counts and delays of C75 |
| C99 | the calls of the client (`OWPSessionRequest`, `OWPStartSessions`, `OWPStopSessions`, `OWPStopSessionsWait`, `OWPFetchSession`) on the connection of C10 – C15, in any order; the phase of the conversation is followed from what goes over the wire and what the calls return | invariant over the calls: the state of the connection is that of the phase, or the connection failed; a call that is refused by the state sends nothing |
| C100 | the calls of C99 on the client's end and the passes of C15, the fetches of C36 and the test requests of C77 on the server's end of one connection; the two ends are run against each other, each on what the other has written so far, until nothing more is written | each kind of request is run from a calm connection (both ends idle, in step, nothing unread) and shown to settle after two rounds in success and another calm connection; induction over the history |
| C101 | the socket options set by `_OWPEndpointInit` and `recvfromttl`, over arbitrary answers of `getsockopt`, `setsockopt` and `recvmsg`; how a system puts reports of TTLs into a buffer is in the specification | case analysis of the options; the loop over the ancillary data by induction; joined to the runs of the receiver (C26), of the two-way client (C69) and of the reflector (C71); with C97, C98, C84, C85, C102 and C103 to the hops and TTLs that are read |
| C102 | `OWPStatsPrintMachine` for a two-way session (`Model/PrintTw`), on the summary of C75; the texts of floating point numbers are parameters | reading the text back as lines of fields gives the lines written; each is tied to the records by C75, and with C98 to the trips over the network |
| C103 | `OWPStatsPrintSummary` for a two-way session (`Model/PrintSummaryTw`), on the summary of C75; the texts of floating point numbers are parameters | reading the text back as lines gives the lines written; each is tied to the records by C75, and with C98 to the trips over the network |
| C104 | `OWPDCheckControlPolicy`, `OWPDSendClass`, `OWPDCheckTestPolicy` and `OWPDCheckFetchPolicy` from the class on (`Model/Admit`), joined with `OWPControlAccept` (C18, C20), the limits file (C41-C43), the messages (C44) and the daemon's loop (C48) | cases of what can fail between the two processes; names of classes are unique, short and without zeros, and demands do not change them |
| C105 | the loop of `NewConnection` with the flags of `signal_catch`, the timer and the places where `OWPReadRequestType`, the functions that serve requests, `OWPStopSessionsWait` and `OWPStopSessions` wait (`Model/Life`) | state machine; signals between any two steps; invariant for the timer, and a number of steps left that every step lowers once the process is told to end |
| C106 | the options and the lock of powstream's `main` (`Model/PowOptions`); `strtod`, the conversions of doubles and the table of facilities are parameters | induction on the command line with one lemma for "the last one counts"; invariant over the histories of the system's locks |
| C107 | the options of owping's `main` up to the first request (`Model/PingOptions`), tied to `Options`, `Dscp`, `Ports`, `Sizes` and `Ping` | as C106; finite tables for the sizes of packets by mode |
| C108 | `OWPDPolicyInstall` (`Model/PolicyInstall`), tied to `Secrets` and `Classes` | the success of the function unfolded step by step into an equivalence; the lines of both files as lists; C42 and C89 for what they say |
| C109 | the models of C36, C50 and C53 together | the client's file has the records of the range at its own offset; a summary depends on the records of its range only, and not on the offset |
| C110 | `FetchSession` of powstream (powstream.c:378-424) with the connection it keeps, over the model of C36; a connection may end at any byte of an answer | invariant over the history: the connection held is one on which a request may be sent and nothing is under way; what the client has read without failing does not depend on what comes after it (`Lemmas/More`), so a cut answer fails; the parts by induction over their number |
| C111 | the readers of all control messages (models of C10, C11, C15); a connection that ends is an input that ends | every reader that accepts gives the same with more input behind it (by induction over blocks, slots, sessions and skip ranges); so a part that were accepted would leave the rest of the whole unread |
| C62 | `owampd/policy.c` session counting | invariant over histories of one connection |
| C63 | `context.c` configuration table, key-derivation count | negation witnesses |
| C54 | port-range parser and port choice | decision logic, negation witnesses |
| C55, C56 | session list aggregation, start order | induction on lists |
| C58 | Rijndael tables and rounds | algebra over bytes, whole-table `decide +kernel` lifted |
| C59 | size computations | arithmetic |
| C60 | `timespec` macros, NTP offset loops | arithmetic, loop invariants |

Nothing in the list is planned as "not applicable"; where the runtime matters (signals, clocks,
file system) the runtime's choices are inputs of the model and universally quantified.

## 3. Trusted base

* Lean's kernel. No axioms of our own, no `sorry`, no `native_decide` or `bv_decide`. Section 3.1 lists the axioms of each property theorem.
* The reading of the C code, cited at each definition. No code is executed.
* C semantics as used: 8-bit bytes, 32-bit `int`, 64-bit `long`, two's complement, network byte order via
  `htonl`/`ntohl`, IEEE 754 doubles rounded to nearest where floating point is modelled (`Limits`, `Buckets`); elsewhere floating point operations are
  parameters.
* The definitions of `Spec/` use the record types of the model, and here and there one of its functions where repeating it would say the same in other words (such as
  how a packet is opened, in `Spec/Receiver`); those functions have theorems of their own.
* Not modelled at all: I2util (hash tables, logging, PBKDF2 and HMAC-SHA1 internals, option tables), the kernel (sockets, files, signal delivery, processes), name
  resolution. They appear as parameters, as inputs that range over everything they may do, or are listed below.

### 3.1 Axioms of each property theorem

* no axioms: `C101_untold`, `C106_lock`, `C35_estimate_wraps`, `C36_skip_count_wraps`, `C55_failure_forgotten`, `C55_twoway_forgotten`, `C74_example`, `C74_incomplete`, `C74_leftover`, `C74_printed_missing`, `C74_printed_unset`, `C79_negative`, `C79_percentile_text`, `C81_plain`, `C81_setuid`, `C86_text_after`, `C87_dead`, `C87_neither`, `C91_owfetch_status`.
* `propext`: `C06_reset_rekeys`, `C101_foreign`, `C104_later`, `C105_child`, `C105_child_two_way`, `C105_graceful`, `C105_interrupt`, `C105_lost_alarm`, `C105_lost_end`, `C105_session_over`, `C105_timer_partial`, `C105_two_way_end`, `C105_two_way_untimed`, `C106_alone`, `C14_digest_binds`, `C32_slot_count_wraps`, `C36_range`, `C36_unfinished_is_cut`, `C39_rounding`, `C44_stale`, `C45_lost_answer`, `C45_unknown_size`, `C49_failed_store`, `C49_long_keys`, `C54_tail_ignored`, `C55_status_stale`, `C59_wraps`, `C63_ignored`, `C73_anew_example`, `C73_early_example`, `C73_example`, `C73_fetch_signal`, `C73_session_moved`, `C73_setup_failure`, `C74_data_written`, `C74_left_behind`, `C75_end_time`, `C75_example`, `C75_lost_twice`, `C75_synchronised`, `C76_renumbered`, `C78_trailing`, `C81_install`, `C82_one_partial`, `C82_stale`, `C82_two`, `C83_late`, `C83_stuck`, `C83_unnoticed`, `C83_zero`, `C88_first_partial`, `C88_taken`, `C89_goes_on`, `C89_undefined`, `C90_left_behind`, `C91_file_left`, `C94_one_reading`.
* `Quot.sound`, `propext`: `C03_errest_roundtrip`, `C03_errest_zero`, `C04_reuse_sound`, `C04_unknown_error_understated`, `C05_error_overflow`, `C06_after_last`, `C06_reset_empty_divides_by_zero`, `C06_reset_restores`, `C09_bound`, `C101_crowded`, `C101_example`, `C101_foreign_example`, `C101_sockets`, `C101_sockets_example`, `C101_taken`, `C101_told`, `C104_open_mode`, `C104_served_example`, `C105_silent_partial`, `C105_status`, `C105_stop_untimed`, `C105_told`, `C105_told_waiting`, `C106_ports`, `C106_status`, `C107_asymmetric`, `C107_class`, `C107_directions`, `C107_numbers_partial`, `C107_padding_partial`, `C107_schedule`, `C107_shown`, `C107_status`, `C107_texts`, `C107_threshold`, `C110_connections`, `C111_answers`, `C111_asked`, `C111_client`, `C111_connection`, `C111_requests`, `C111_sent`, `C111_server`, `C111_setup`, `C111_stop`, `C11_reserved_bytes_are_not_checked`, `C12_no_multiplier`, `C12_scale_64_is_lost`, `C14_honest`, `C14_receiver`, `C15_bad_type_shuts`, `C15_example`, `C15_setup_order`, `C15_twoway_survives_refusal`, `C15_type_allowed`, `C16_disorder_accepted`, `C17_omission_accepted`, `C18_unoffered_accepted`, `C20_exchange_example`, `C21_oneway_partial`, `C21_twoway_third_party`, `C22_example`, `C22_zero_packets`, `C23_example`, `C24_example`, `C25_stopped_in_flush`, `C26_digest`, `C26_rejected_fatal`, `C26_stranger_fatal`, `C27_stopped_before_flush`, `C28_example`, `C28_example_refused`, `C29_linked`, `C31_zero_timeout`, `C33_twoway_overflow`, `C34_ranges_read_as_records`, `C36_complete`, `C36_cut_off`, `C38_failed_seen_otherwise`, `C39_claims_partial`, `C39_daemon_partial`, `C39_overflow`, `C39_within_partial`, `C40_denied`, `C40_overflow`, `C40_restored_partial`, `C42_mapped`, `C43_named`, `C43_open`, `C43_padding`, `C45_balance_partial`, `C45_class_partial`, `C45_recorded`, `C45_returned_partial`, `C46_only_partial`, `C46_part`, `C46_unsent`, `C47_lost`, `C47_memory`, `C47_seen_partial`, `C48_bandwidth`, `C48_only_demands`, `C49_latest_partial`, `C49_set`, `C52_second_share`, `C53_wrap`, `C54_documented_partial`, `C54_parse`, `C54_stream_two_ports`, `C54_tools_take`, `C54_zero_refused`, `C55_active`, `C55_history`, `C55_local_verdict`, `C55_status`, `C56_both`, `C56_client`, `C56_server`, `C57_example`, `C59_allocated_partial`, `C59_packet_partial`, `C59_payload_partial`, `C59_reader_enough`, `C59_reply_enough`, `C59_reply_length_partial`, `C59_reply_mismatch`, `C61_lines_partial`, `C61_overrun`, `C62_granted`, `C62_not_reached`, `C63_not_honoured`, `C66_failed`, `C66_sessions`, `C66_stops_at_failure`, `C66_twoway`, `C67_example`, `C67_stopped_in_flush`, `C68_forged_end`, `C68_interrupt_marked`, `C68_interrupted`, `C68_short_end`, `C68_skipped_unrecorded`, `C68_undefined`, `C69_padded`, `C69_padded_example`, `C69_zero_time`, `C71_example`, `C71_round_trip_example`, `C71_stale`, `C71_stopped_fails`, `C71_stranger_ends`, `C72_clock_error`, `C72_error_as_zero`, `C72_example`, `C72_lost_wakeup`, `C72_wake_wraps`, `C73_anew`, `C73_skip_begin`, `C74_data`, `C74_kept_partial`, `C74_printed_partial`, `C74_session_partial`, `C76_crossed`, `C76_late`, `C77_addresses`, `C77_asked`, `C77_example`, `C77_list`, `C77_misfit`, `C78_accepted`, `C78_lower_case`, `C78_name_partial`, `C78_number`, `C78_packets`, `C78_unsupported`, `C79_schedule_example`, `C80_place`, `C80_slash`, `C81_forever`, `C81_groups`, `C81_serves_partial`, `C83_children`, `C83_prompt_partial`, `C85_seconds`, `C85_unit_partial`, `C86_cut`, `C86_fractions`, `C86_logging`, `C86_modes`, `C86_no_mode`, `C86_numbers_partial`, `C86_ports_partial`, `C86_prefix`, `C86_starts_partial`, `C86_texts`, `C86_warn`, `C86_zero_after`, `C89_client_partial`, `C89_example`, `C90_announced`, `C90_files`, `C90_limited_summary`, `C90_success`, `C90_too_many_packets`, `C91_no_results`, `C91_owfetch`, `C91_owstats`, `C92_no_memory`, `C94_cut_silent`, `C94_lost`, `C95_unix_negative`, `C96_leak`, `C99_example`, `C99_out_of_turn`.
* `Classical.choice`, `Quot.sound`, `propext`: `C01_mult_exact`, `C01_mult_no_overflow`, `C02_num64_roundtrip`, `C02_ofTimespec_mono`, `C02_timespec_roundtrip`, `C02_timespec_value`, `C02_timeval_roundtrip`, `C02_toTimespec_mono`, `C02_toTimespec_value`, `C02_usec`, `C03_timestamp_roundtrip`, `C03_timestamp_surjective`, `C04_error_not_understated`, `C05_error_value_partial`, `C06_schedule`, `C06_spec_unique`, `C07_literal_period`, `C07_slot_cyclic`, `C08_counter_stream`, `C08_counter_value`, `C09_exponential`, `C09_spec_unique`, `C100_ask`, `C100_example`, `C100_fetch`, `C100_fetch_refused`, `C100_opened`, `C100_opened_example`, `C100_sessions`, `C100_understand`, `C101_back`, `C101_hops`, `C101_out`, `C101_read`, `C101_read_tw`, `C101_trips`, `C102_all_ttls`, `C102_counts_partial`, `C102_delays`, `C102_end_time`, `C102_histogram`, `C102_no_reply`, `C102_percentiles`, `C102_synchronised`, `C102_trip_delays`, `C102_trips_partial`, `C102_true`, `C102_ttls_partial`, `C103_all_ttls`, `C103_end_time`, `C103_figures_partial`, `C103_first_partial`, `C103_hops_partial`, `C103_synchronised`, `C103_trips_partial`, `C103_true`, `C104_admitted`, `C104_charged`, `C104_daemon`, `C104_open_partial`, `C104_served`, `C104_unserved`, `C106_empty`, `C106_end_delay`, `C106_flags`, `C106_fractions`, `C106_loop`, `C106_nan`, `C106_negative`, `C106_no_wait`, `C106_numbers_partial`, `C106_refused`, `C106_summaries`, `C106_texts`, `C106_truncated`, `C107_delay`, `C107_empty`, `C107_fractions`, `C107_negative`, `C107_no_number`, `C107_percentiles_partial`, `C107_percentiles_taken`, `C107_refused`, `C107_two_classes`, `C107_unset`, `C108_assigned`, `C108_only`, `C108_secretless`, `C108_starts`, `C108_unlimited`, `C108_unreadable`, `C109_cut`, `C109_part_partial`, `C10_accept_session`, `C10_fetch_ack`, `C10_fetch_session`, `C10_greeting`, `C10_server_start`, `C10_server_start_refused`, `C10_setup_response`, `C10_start_ack`, `C10_start_sessions`, `C10_stop_sessions`, `C10_stop_sessions_twoway`, `C110_each`, `C110_never_part`, `C110_parts`, `C110_records`, `C111_stop_sent`, `C11_accepted_partial`, `C11_request`, `C11_request_twoway`, `C12_old_versions`, `C12_reading_is_faithful`, `C12_record_partial`, `C12_twoway_record_partial`, `C13_bytes_on_socket`, `C13_in_step`, `C14_conversation`, `C14_messages`, `C14_sender`, `C14_stop_sessions`, `C15_dead_after_refusal_partial`, `C15_requests_in_order`, `C15_unexpected_told`, `C16_ranges_partial`, `C17_exactly_once_if_counts_match`, `C17_named_once_partial`, `C18_one_mode_partial`, `C19_strongest_mode`, `C20_keys_agree`, `C20_proof_of_secret`, `C20_replay_refused`, `C22_accounted_partial`, `C22_uninterrupted`, `C23_canonical`, `C23_reported`, `C24_complete`, `C24_final`, `C24_one_verdict`, `C25_lost_after_timeout_partial`, `C25_scheduled_time`, `C26_only_genuine_partial`, `C26_rejected_unchanged`, `C26_timely_recorded`, `C27_due_have_verdict_partial`, `C28_layout`, `C28_oneway_understood`, `C28_sender_run`, `C28_twoway_understood`, `C29_oneway`, `C29_twoway`, `C30_cleans_partial`, `C30_kept_partial`, `C30_unflushed`, `C31_never_ends`, `C31_safe`, `C31_search_partial`, `C32_header_partial`, `C32_layout`, `C32_scope_lost`, `C32_twoway_conf_sender`, `C33_all_records`, `C33_records_partial`, `C33_twoway_records_partial`, `C34_crash_partial`, `C34_fetched`, `C34_finished`, `C34_receiving`, `C35_diskspace_partial`, `C36_fetch_partial`, `C36_finished`, `C37_framing_partial`, `C37_slot_count_wraps`, `C38_complete_refused`, `C38_failed_in_between`, `C38_failed_partial`, `C38_refusal_told`, `C39_near_partial`, `C41_file`, `C41_inherits`, `C41_refused`, `C41_root`, `C41_wellFormed`, `C42_assignments`, `C42_longest_partial`, `C43_user_partial`, `C44_answers_partial`, `C44_class`, `C44_class_only`, `C44_damaged`, `C44_own_class`, `C44_query`, `C44_query_only`, `C44_response`, `C44_response_only`, `C46_deleted`, `C47_accepted_partial`, `C47_count`, `C47_freed`, `C47_max`, `C48_returned_partial`, `C50_complete`, `C50_counts`, `C50_receiver_lostOnce`, `C51_percentile`, `C52_reordering`, `C52_shares_partial`, `C53_file_partial`, `C53_orderly_partial`, `C53_receiver_orderly`, `C53_receiver_partial`, `C53_same_answer`, `C53_second_from_zero`, `C54_asked`, `C54_beyond_range`, `C54_ephemeral`, `C54_full_range`, `C54_inside_partial`, `C54_never_ends`, `C54_reflector_open`, `C54_search_partial`, `C54_undefined`, `C54_written`, `C55_nobody_left`, `C55_stop_partial`, `C55_twoway_never_ok`, `C56_client_ok`, `C57_any`, `C57_reflected`, `C58_decrypt_encrypt`, `C58_encrypt_decrypt`, `C58_injective`, `C58_is_aes`, `C59_check_never_fires`, `C59_demand_example`, `C59_demand_partial`, `C59_emitted_partial`, `C59_no_delay_is_free`, `C59_rate_literal_partial`, `C59_rate_partial`, `C59_sum_wraps`, `C59_wraps_iff`, `C60_getTimespec`, `C60_timespec_arith`, `C61_capacity`, `C64_chain`, `C64_file_chain`, `C64_next_offset`, `C64_next_range`, `C65_all_ttls`, `C65_figures`, `C65_ttl_partial`, `C66_lock_kept`, `C66_received_kept_partial`, `C66_trailing_example`, `C66_trailing_stay`, `C67_lost_partial`, `C67_one_verdict`, `C67_passed`, `C68_complete_expired`, `C68_complete_partial`, `C68_defined`, `C68_stopped`, `C68_undisturbed`, `C69_genuine`, `C69_recorded`, `C70_sent`, `C70_understood`, `C71_answered`, `C71_contents`, `C71_ends`, `C71_genuine_partial`, `C71_number_fits`, `C71_numbered`, `C71_replied_partial`, `C71_round_trip`, `C72_agreed`, `C72_at_once`, `C72_blocks`, `C72_nobody_left`, `C72_noticed_partial`, `C72_undisturbed`, `C72_values`, `C72_wake_partial`, `C73_early_partial`, `C73_follows`, `C73_sessions_partial`, `C73_summaries_partial`, `C75_counts_partial`, `C75_delays`, `C75_errors_ttls`, `C75_percentile_partial`, `C76_in_step_partial`, `C76_refused`, `C77_agree`, `C77_history_partial`, `C77_orphan`, `C77_outcomes`, `C77_refused`, `C79_modes`, `C79_percentile_partial`, `C79_schedule`, `C79_start`, `C80_catalog`, `C80_charge`, `C80_classes`, `C80_fetch_partial`, `C80_starts`, `C83_ends_partial`, `C83_leaves_partial`, `C84_all_ttls`, `C84_beyond`, `C84_beyond_row`, `C84_came_ttls_partial`, `C84_counts`, `C84_delays`, `C84_histogram`, `C84_no_ttl`, `C84_reordering_partial`, `C84_ttls_partial`, `C85_figures`, `C85_fraction`, `C85_heading`, `C85_hops_partial`, `C85_hops_wrong`, `C85_reordering_partial`, `C85_times_partial`, `C86_flags`, `C87_contacted`, `C87_first_partial`, `C87_record_partial`, `C87_socket`, `C89_both`, `C89_let_in`, `C89_server`, `C90_limit`, `C90_parts_partial`, `C90_reports_partial`, `C90_whole`, `C91_interrupted`, `C91_kept`, `C91_removed_partial`, `C91_reports`, `C91_start`, `C91_status`, `C92_begins`, `C92_kept`, `C92_receiver`, `C92_twoway`, `C93_bucket`, `C93_delay`, `C93_extremes`, `C93_far_clock`, `C93_fits`, `C93_percentile`, `C93_trip`, `C93_twoway`, `C94_complete_partial`, `C94_complete_twoway_partial`, `C94_raw`, `C94_raw_twoway`, `C94_written`, `C94_written_twoway`, `C95_failed_partial`, `C95_lines_partial`, `C95_twoway_partial`, `C96_close_partial`, `C96_finish_partial`, `C96_once_partial`, `C96_safe`, `C96_stop`, `C97_copies`, `C97_figures`, `C97_people`, `C97_program`, `C97_records`, `C97_report`, `C98_example`, `C98_records`, `C98_report`, `C98_told`, `C99_in_turn_or_lapse`, `C99_in_turn_partial`, `C99_silent_after_break`.

### 3.2 What is modelled, by source file

The modules of `lean/Verif/Model/` are in parentheses. A function counts as modelled if at least three fifths of its lines are cited by a definition; the rest are
declarations, log messages and freeing of memory. "In part" gives the share of the lines cited. What a definition leaves out is said in its comment.

**owamp/api.c**

* Modelled: `_OWPTestSessionAlloc` (Close), `_OWPTestSessionFree` (Close, Sessions, TestPolicy), `_OWPCreateSID` (TestRequest), `OWPTestPayloadSize` (Packet, Sizes), `OWPTestTWPayloadSize` (Packet, Sizes), `OWPTestPacketRate` (Sizes), `OWPTestPacketSize` (Sizes), `OWPTestTWPacketSize` (Sizes), `OWPTestPacketBandwidth` (Sizes), `OWPSessionStatus` (Sessions), `OWPSessionsActive` (Sessions), `_OWPStopSendSessions` (Sessions), `_OWPStopRecvSessions` (Sessions), `_OWPCleanDataRecs` (Clean, CleanUp, DataFile), `GetMaxRecv` (CleanUp), `_OWPCleanUpSessions` (CleanUp, Sessions), `OWPStopSessions` (Client, Sessions, Server, Close), `OWPStopSessionsWait` (Client, Wait, Server, Life), `GetSessionFinishedType` (DataFile), `_OWPWriteDataHeaderFinished` (DataFile), `OWPWriteDataHeaderNumSkipRecs` (DataFile), `OWPWriteDataHeaderNumDataRecs` (DataFile), `OWPWriteDataHeader` (DataFile), `OWPWriteDataRecord` (Receiver, DataFile), `OWPWriteTWDataRecord` (DataFile, TwoWay), `OWPReadDataHeader` (DataFile), `OWPReadDataHeaderSlots` (DataFile), `OWPParseRecords` (DataFile), `OWPParseTWRecords` (DataFile), `OWPReadDataSkips` (DataFile), `OWPTestDiskspace` (DataFile), `OWPIsLostRecord` (TwStats, Clean, Stats, Fetch), `OWPSocketInterfaceBind` (Connect).
* Not modelled: `OWPGetContext`: accessor; `OWPGetMode`: accessor; `OWPControlFD`: accessor; `OWPGetRTTBound`: accessor; `_OWPFailControlSession`: returns its argument after a log line; `OWPControlIsTwoWay`: accessor; `OWPSetEffectiveCapability`: Linux capabilities (never built in by default); `OWPAddEffectiveCapability`: Linux capabilities; `OWPRemoveEffectiveCapability`: Linux capabilities.

**owamp/capi.c**

* Modelled: `_OWPClientBind` (Connect), `TryAddr` (Connect), `_OWPClientConnect` (Connect), `OWPControlOpenCommon` (Accept), `_OWPClientRequestTestReadResponse` (Request), `OWPSessionRequest` (Client, Request, Close), `OWPStartSessions` (Client, Sessions), `OWPDelay` (Buckets, Stats), `OWPFetchSession` (Client, Fetch, PowFetch), `OWPParsePortRange` (Ports), `_OWPIsInterface` (Connect).
* Not modelled: `OWPControlOpen`: passes on its arguments; `OWPControlOpenInterface`: passes on its arguments; `TWPControlOpen`: passes on its arguments; `TWPControlOpenInterface`: passes on its arguments.

**owamp/sapi.c**

* Modelled: `OpenSocket` (Connect), `OWPServerSockCreateCommon` (Connect), `OWPControlAcceptCommon` (Accept, Config), `OWPProcessTestRequest` (TestRequest, Server, TestPolicy, Close), `OWPProcessTestRequestTW` (TestRequest, Server, Close), `OWPProcessStartSessions` (Sessions, Server), `DoDataRecords` (Fetch), `OWPProcessFetchSession` (Fetch, TestPolicy, PowFetch, Server), `OWPUnexpectedRequestType` (Server).
* Not modelled: `OWPServerSockCreate`: passes on its arguments; `TWPServerSockCreate`: passes on its arguments; `OWPControlAccept`: passes on its arguments; `TWPControlAccept`: passes on its arguments.

**owamp/protocol.c**

* Modelled: `_OWPWriteServerGreeting` (Protocol), `_OWPReadServerGreeting` (Protocol), `_OWPWriteSetupResponse` (Protocol), `_OWPReadSetupResponse` (Protocol), `GetAcceptType` (Conn), `_OWPWriteServerStart` (Protocol), `_OWPReadServerStart` (Protocol), `OWPReadRequestType` (Life, Protocol), `_OWPEncodeTestRequestPreamble` (Protocol), `_OWPDecodeTestRequestPreamble` (Protocol), `_OWPEncodeSlot` (Codec), `_OWPDecodeSlot` (Codec), `_OWPWriteTestRequest` (Protocol), `_OWPReadTestRequestSlots` (Protocol), `_OWPTestSessionSetIPv6LLScope` (Protocol), `_OWPSetSAddrIfUnspec` (Protocol), `_OWPReadTestRequest` (Protocol), `_OWPWriteAcceptSession` (Protocol), `_OWPReadAcceptSession` (Protocol), `_OWPWriteStartSessions` (Protocol), `_OWPReadStartSessions` (Protocol), `_OWPWriteStartAck` (Protocol), `_OWPReadStartAck` (Protocol), `_OWPWriteStopSessions` (Stop), `_OWPEncodeSkipRecord` (Codec), `_OWPDecodeSkipRecord` (Codec), `_OWPReadStopSessions` (Close, Stop, DataFile, Sessions), `_OWPWriteFetchSession` (Protocol), `_OWPReadFetchSession` (Protocol), `_OWPWriteFetchAck` (Protocol), `_OWPReadFetchAck` (Protocol), `_OWPEncodeDataRecord` (Codec), `_OWPDecodeDataRecord` (Codec), `_OWPEncodeTWDataRecord` (Codec), `_OWPDecodeTWDataRecord` (Codec).

**owamp/endpoint.c**

* Modelled: `LostFree` (Pool), `EndpointFree` (Close, TestPolicy), `CmpLostPacket` (Pool), `HashLostPacket` (Pool), `_OWPEndpointInit` (TestRequest, Hops, Ports, Dscp), `skip` (Sender), `run_sender` (Sender, Packet), `alloc_node` (Pool), `free_node` (Pool), `get_node` (Receiver, Pool, TwoWay), `recvfromttl` (Hops), `flush_lost` (Receiver, TwoWay, Pool, DataFile), `run_receiver` (Receiver, Pool, Packet, DataFile), `run_reflector` (Reflector, Packet, Sizes, TestRequest), `run_tw_test` (TwoWay, Packet, Pool, Sizes), `_OWPEndpointInitHook` (TestRequest, Packet), `_OWPEndpointStart` (Sessions), `_OWPEndpointStatus` (Sessions), `_OWPEndpointStop` (Close, Sessions), `_OWPEndpointFree` (Close, Sessions).
* Not modelled: `EndpointAlloc`: allocation; `SkipFree`: freeing of memory; `EndpointClear`: closing of descriptors; `reopen_datafile`: duplication of a descriptor; `anon_file`: a temporary file (its removal is part of `Ping`); `sig_nothing`: empty; `sig_catch`: sets a flag; the flags are inputs of the models.

**owamp/context.c**

* Modelled: `OWPContextCreate` (Config), `OWPControlClose` (Close), `_OWPControlAlloc` (Close), `ConfigSetU` (Config), `ConfigSetV` (Config), `ConfigSetU32` (Config), `ConfigSetF` (Config), `ConfigGetU` (Config), `ConfigGetV` (Config), `ConfigGetU32` (Config), `ConfigDelete` (Config), `OWPContextConfigSetV` (Config), `OWPContextConfigSetF` (Config), `OWPContextConfigSetU32` (Config), `OWPContextConfigGetV` (Config), `OWPContextConfigGetU32` (Config), `OWPContextConfigGetF` (Config), `OWPContextConfigDelete` (Config), `_OWPCallGetPF` (Secrets, Accept), `_OWPCallTestComplete` (Close), `_OWPCallCloseFile` (Close).
* In part: `OWPContextErrHandle` (Config; 50 % of its lines), `OWPContextFree` (Close; 9 % of its lines).
* Not modelled: `notmuch`: empty; `free_hash_entries`: freeing of memory; `OWPControlConfigSetV`: as for contexts (`Config`); `OWPControlConfigSetU32`: as for contexts (`Config`); `OWPControlConfigSetF`: as for contexts (`Config`); `OWPControlConfigGetV`: as for contexts (`Config`); `OWPControlConfigGetU32`: as for contexts (`Config`); `OWPControlConfigGetF`: as for contexts (`Config`); `OWPControlConfigDelete`: as for contexts (`Config`); `_OWPCallCheckControlPolicy`: calls a hook; `_OWPCallCheckTestPolicy`: calls a hook; `_OWPCallCheckFetchPolicy`: calls a hook; `_OWPCallOpenFile`: calls a hook.

**owamp/io.c**

* Modelled: `_OWPSendBlocksIntr` (Conn), `_OWPReceiveBlocksIntr` (Conn), `OWPEncryptToken` (Cbc), `OWPDecryptToken` (Cbc), `_OWPSendHMACAdd` (Conn), `_OWPSendHMACDigestClear` (Conn), `_OWPRecvHMACAdd` (Conn), `_OWPRecvHMACCheckClear` (Conn).
* Not modelled: `_OWPSendBlocks`: passes on its arguments; `_OWPReceiveBlocks`: passes on its arguments; `_OWPEncryptBlocks`: passes on its arguments (`Cbc`); `_OWPDecryptBlocks`: passes on its arguments (`Cbc`); `_OWPMakeKey`: passes on its arguments.

**owamp/time.c**

* Modelled: `_OWPGetTimespec` (Time), `_OWPEncodeTimeStamp` (Time), `_OWPEncodeTimeStampErrEstimate` (Time), `_OWPDecodeTimeStamp` (Time), `_OWPDecodeTimeStampErrEstimate` (Time), `OWPTimevalToTimestamp` (Time), `OWPTimestampToTimeval` (Time), `OWPTimespecToTimestamp` (Time), `OWPTimestampToTimespec` (Time), `OWPGetTimeStampError` (Time, Stats).
* Not modelled: `_OWPInitNTP`: asks the kernel once; `OWPGetTimeOfDay`: wrapper of `_OWPGetTimespec`.

**owamp/schedule.c**

* Modelled: `OWPUnifRand64` (Schedule), `OWPExpContextNext` (Schedule), `OWPScheduleContextCreate` (Schedule), `OWPScheduleContextReset` (Schedule), `OWPScheduleContextGenerateNextDelta` (Schedule).
* Not modelled: `OWPScheduleContextFree`: freeing of memory; `OWPExpContextFree`: freeing of memory; `OWPExpContextCreate`: wrapper.

**owamp/stats.c**

* Modelled: `PacketAlloc` (TwStats, Stats), `PacketGet` (TwStats, Stats), `BucketBufferPrint` (Print), `BucketBufferPrintTW` (PrintTw), `BucketIncrementDelay` (PrintTw, Buckets, Stats), `OWPStatsCreate` (Stats, Print, PrintSummary), `PacketBeginFlush` (TwStats, Stats), `IterateSummarizeSession` (Verbose, Stats), `IterateSummarizeTWSession` (Verbose, TwStats), `PrintStatsHeader` (PrintSummaryTw, PrintSummary), `BucketBufferSortCmp` (Buckets, Stats), `BucketBufferSortPercentile` (TwStats, Buckets, Stats), `OWPStatsParse` (Verbose, TwStats, Stats, Reports), `OWPStatsScaleFactor` (PrintSummary, PingOptions), `PrintDelayStats` (PrintSummaryTw, PrintSummary), `CalculateJitter` (PrintTw, PrintSummaryTw, PrintSummary, Print), `PrintJitterStats` (PrintSummaryTw, PrintSummary), `CalculateTtlStats` (PrintTw, Stats), `PrintTtlStats` (PrintSummaryTw, PrintSummary), `OWPStatsPrintSummary` (PrintSummaryTw, PrintSummary, Stats), `PrintMinDelayMachine` (PrintTw, Print), `PrintMaxDelayMachine` (PrintTw, Print), `PrintMinMaxTtlMachine` (PrintTw, Print), `PrintTtlBucket` (Print), `PrintTtlBucketTW` (PrintTw), `PrintTtlStatsMachine` (PrintTw, Print), `OWPStatsPrintMachine` (PrintTw, Print, Dscp).
* Not modelled: `PacketFree`: the lists of `Stats`; `PacketBufferClean`: empties the lists of `Stats` (done by `begin` there); `BucketBufferClean`: empties the table of `Stats` (done by `begin` there); `BucketBufferSortFill`: lists the table (`sorted` in `Stats`); `OWPStatsFree`: freeing of memory.

**owamp/arithm64.c**

* Modelled: `OWPNum64Mult` (Num64), `OWPNum64ToTimespec` (Num64), `OWPTimespecToNum64` (Num64), `OWPNum64ToTimeval` (Num64), `OWPTimevalToNum64` (Num64), `OWPNum64ToDouble` (Buckets, Sizes), `OWPDoubleToNum64` (PingOptions, Options, PowOptions).

**owamp/rijndael-api-fst.c**

* Modelled: `blockEncrypt` (Cbc), `blockDecrypt` (Cbc), `bytes2Key` (Rijndael).
* Not modelled: `makeKey`: copies the key and calls the key set-up; `cipherInit`: copies the initial vector.

**owamp/rijndael-alg-fst.c**

* Modelled: `rijndaelKeySetupDec` (Rijndael), `rijndaelEncrypt` (Rijndael), `rijndaelDecrypt` (Rijndael).
* In part: `rijndaelKeySetupEnc` (Rijndael; 36 % of its lines).
* Not modelled: `rijndaelEncryptRound`: never called; `rijndaelDecryptRound`: never called.

**owampd/policy.c**

* Modelled: `parsepfs` (Secrets), `GetDefLimit` (Limits), `parselimitline` (Classes), `parseassignline` (Classes, PolicyInstall), `parselimits` (Classes, PolicyInstall), `node_dir` (Restart), `clean_catalog` (Restart), `verify_datadir` (Restart), `InitializeDiskUsage` (Restart), `OWPDPolicyInstall` (PolicyInstall, Secrets), `OWPDPolicyPostInstall` (Restart), `OWPDGetPF` (Secrets), `GetNodeDefault` (Classes), `GetNodeFromUserID` (Classes), `GetNodeFromAddr` (Classes), `GetLimit` (Limits), `IntegerResourceUsage` (Restart, Limits), `OWPDResourceUsage` (Restart), `IntegerResourceDemand` (Limits), `OWPDResourceDemand` (Limits, Broker), `OWPDSendResponse` (Admit, Broker), `OWPDReadResponse` (Broker), `OWPDReadClass` (Broker), `OWPDSendClass` (Admit), `OWPDReadQuery` (Broker), `OWPDQuery` (Admit, TestPolicy, Broker), `OWPDAllowOpenMode` (Classes), `OWPDCheckControlPolicy` (Admit, Classes), `OWPDCheckTestPolicy` (Admit, TestPolicy, Sizes), `OWPDCheckFetchPolicy` (Admit, TestPolicy), `OWPDTestComplete` (TestPolicy), `OWPDOpenFile` (TestPolicy, Restart), `OWPDCloseFile` (TestPolicy).
* In part: `OWPDResourceUsage` (Restart; 16 % of its lines), `GetUsed` (Limits; 33 % of its lines).
* Not modelled: `GetLimName`: a name for log messages.

**owampd/owampd.c**

* Modelled: `signal_catch` (Life, Daemon), `AllocChldState` (Daemon, Admit), `FreeChldState` (Daemon), `CheckFD` (Broker), `CleanPipes` (Daemon), `NewConnection` (Life, Server, PowFetch, Daemon), `parse_ports` (Startup, Ports), `LoadConfig` (Startup).
* In part: `ReapChildren` (Shutdown, Daemon; 9 % of its lines).
* Not modelled: `usage`: printing; `ClosePipes`: closing of descriptors; `intcmp`: comparison of `int` keys; `inthash`: hash of `int` keys.

**owping/owping.c**

* Modelled: `FailSession` (Ping), `printraw` (Raw), `printrawTW` (Raw), `do_stats` (Reports, Raw), `owp_fetch_sid` (Ping), `getclientpf` (Secrets), `owp_set_auth` (Secrets, Options, PingOptions), `parse_percentile` (Options), `parse_slots` (Options), `parse_typeP` (Dscp), `main` (PingOptions, Ping, Options, Ports).
* Not modelled: `print_conn_args`: printing; `print_test_args`: printing; `print_output_args`: printing; `usage`: printing; `tfile`: opens a temporary file; `signal_catch`: sets a flag; the flags are inputs of the models.

**powstream/powstream.c**

* Modelled: `owp_set_auth` (Secrets), `GetMaxSend` (Powstream), `FetchSession` (PowFetch, Powstream), `write_session` (Powstream, Publish, PowFetch), `ResetSession` (Powstream), `CloseSessions` (Powstream), `sig_check` (Powstream), `SetupSession` (Powstream), `main` (PowOptions, Powstream, Publish, Ports).
* Not modelled: `print_conn_args`: printing; `print_test_args`: printing; `print_output_args`: printing; `usage`: printing; `getclientpf`: accessor; `sig_catch`: sets a flag; the flags are inputs of the models.

**owamp/error.c**

* Modelled: `OWPReportLevelByName` (Startup).
* Not modelled: `OWPError_`: logging.

## 4. Where the code disagrees with a property

Each entry is a theorem with a concrete witness; the property itself is then proved in the part that
holds (`_partial`).

| id | witness | what happens |
|----|---------|--------------|
| C04 | `C04_unknown_error_understated` | without an error figure the scale is 64, which six bits cannot hold: the estimate reads as 2^-32 s |
| C05 | `C05_error_overflow` | `multiplier << scale` leaves 64 bits |
| C06 | `C06_after_last`, `C06_reset_empty_divides_by_zero` | reset with no slots divides by zero |
| C11 | `C11_reserved_bytes_are_not_checked` | reserved bytes of requests and slots are never looked at |
| C12 | `C12_scale_64_is_lost` | a record with scale 64 is read back with scale 0 |
| C15 | `C15_twoway_survives_refusal` | `OWPUnexpectedRequestType` puts a two-way connection back into the request state |
| C16 | `C16_disorder_accepted` | `prev_skip` is never assigned, and nothing is compared with the next sequence number |
| C17 | `C17_omission_accepted` | the final check looks at `*sptr` instead of `receivers`: missing sessions go unnoticed and are lost |
| C18 | `C18_unoffered_accepted` | sapi.c:396 tests `mode \| offered`, which is never 0: a client to which only ciphered modes were offered gets open mode |
| C21 | `C21_twoway_third_party` | `OWPProcessTestRequestTW` has no counterpart of the open-mode address check: the reflector answers to any address the client names |
| C22 | `C22_zero_packets` | a session of no packets sends packet 0: `do { } while` tests after the fact, and the delay is the error code 3 |
| C25 | `C25_stopped_in_flush` | A stop signal (SIGUSR2) noticed inside `flush_lost` makes it run its own clock forward, so packets not yet due to be given up are recorded as lost. |
| C26 | `C26_rejected_fatal`, `C26_stranger_fatal` | A datagram with a number not below the packet count, with an error multiplier of 0, or too short while `errno` is not `EINTR` is not just dropped: it ends the session in failure, which removes the results. The size is tested before the sender's address. |
| C26 | `Genuine` in `Spec/Receiver.lean` | The scheduled time a packet is compared with has gone through a `timespec`, so the comparison can be off by up to 5 units of 2⁻³² s. |
| C27 | `C27_stopped_before_flush` | A stop signal found set before the flush of a turn ends the receiver without verdicts for the packets that fell due since the last flush. |
| C32 | `C32_scope_lost` | the scope id of an IPv6 address is not stored in the file (nor sent in a request) |
| C32 | `C32_twoway_conf_sender` | `conf_sender` of a two-way session is always read as true |
| C32 | `C32_slot_count_wraps` | the offset of the data is computed in 32 bits, so with 2²⁸-1 slots it points into the header |
| C33 | `C33_twoway_overflow` | `OWPParseRecords` on a two-way file reads 50-byte records into `rbuf[_OWP_MAXDATAREC_SIZE]`, which has 25 bytes |
| C34 | `C34_ranges_read_as_records` | A crash after the skip ranges of a stop message are written and before the file is marked finished: four or more ranges are longer than a record, and a reader counting records from the file size reads them as one. |
| C35 | `C35_estimate_wraps` | `OWPTestDiskspace` multiplies in 32 bits: from 171 798 692 packets on the estimate starts again at 0 |
| C30 | `C30_unflushed` | `_OWPCleanDataRecs` copies its temporary file back through the descriptor without flushing the stream it wrote with: kept records after a dropped one are lost, the header announces them, and readers then reject the whole file |
| C31 | `C31_never_ends` | a record made exactly at the search threshold becomes the upper end of the interval, and interpolation proposes it again forever |
| C31 | `C31_zero_timeout` | with timeout 0 (or when the threshold is the stop time) the first probe is behind the last record, so the session is thrown away |
| C31 | `Inside` in `Spec/Clean.lean` | The interpolation is done in `double`. Exact arithmetic has the property; for intervals longer than about 2⁴⁰ units (256 s) and large indices rounding can give the upper end, with the effect of `C31_never_ends`. |
| C36 | `C36_unfinished_is_cut` | of a session that is not finished no record beyond the last packet that arrived is sent: loss records at the end of the range are left out |
| C36 | `C36_skip_count_wraps` | the size of the skip ranges is a 32 bit product on both sides: 2²⁹ ranges become none |
| C37 | `C37_slot_count_wraps` | the offset of the records in the header written for 2²⁸ - 1 slots is 152, so the server sends no slots while its request announces them |
| C38 | `C38_failed_in_between` | the finished mark is not looked at again after the file was locked: a session marked as failed between the two readings is returned for any range but the complete one |
| C39 | `C39_overflow` | `IntegerResourceDemand` adds the amount asked for to the amount used in 64 bit arithmetic; a request whose sum wraps is granted and the recorded use becomes small. |
| C39 | `C39_rounding` | The comparison with the limit is made in doubles (`limit * fudge`); for limits from 2^53 on a little more than the limit is granted (at most 2048 more for limits below 2^62, `C39_near_partial`). |
| C40 | `C40_overflow` | After a granted request whose sum wrapped, the release of the same amount is refused because the recorded use is smaller. |
| C42 | `C42_mapped` | `GetNodeFromAddr` turns an IPv4 address mapped into an IPv6 address into the IPv4 address before looking for networks, `parseassignline` does not do so for networks: an IPv6 network that contains mapped addresses never matches. |
| C43 | `C43_padding` | The pass-phrase is looked up by the name up to the first zero byte, the class by all 81 bytes of the field: with any other byte after the zero, a user evades the class they are assigned to and is classified by address. |
| C43 | `C43_named` | A class named like the user is taken before the class the user is assigned to. |
| C61 | `C61_overrun` | `parselimitline` looks for the end of a setting's name without looking for the end of the line: a setting without white space or `=` after its name makes it read (and write a NUL) beyond the end. |
| C44 | `C44_stale` | A process that a signal interrupts while it waits for the daemon's answer takes the query for failed, and the answer stays in the socket: it is read as the answer to the next query, and so on from then on. |
| C47 | `C47_lost` | A process that ends between the last `waitpid` and `owpd_chld = 0` is not noticed until another one ends; its place stays taken and a connection may be refused although there is room. |
| C47 | `C47_memory` | A process for which `AllocChldState` gets no memory is killed but is in no table; when it has ended, `ReapChildren` uses the uninitialised `val`. |
| C48 | `C48_bandwidth` | `FreeChldState` releases nothing ("TODO: Release bandwidth resources here"): what a killed process was granted stays in use until the daemon is restarted. |
| C45 | `C45_lost_answer`, `C45_unknown_size` | A session for which bandwidth was granted and no answer about disk space came (`OWPDCheckTestPolicy` returns on `OWPDMESGINVALID`) keeps the bandwidth and its place among the test sessions. If `fstat` fails when the file is closed the estimate stays charged. `C45_balance_partial`, `C45_returned_partial` and `C45_class_partial` exclude both, and amounts from 2^63 on. |
| C46 | `C46_unsent` | The file is closed, and so deleted, before the last digest is sent: if this cannot be sent the fetch fails and the file is gone. `C46_only_partial` says that everything before the digest was sent. |
| C49 | `C49_long_keys`, `C49_failed_store` | Keys are cut to 64 bytes. A call whose value cannot be stored has already removed the old one. `C49_latest_partial` says what a table holds after any calls, `C49_set` that a value set is found. |
| C63 | `C63_ignored`, `C63_not_honoured` | `OWPContextCreate` reads the count from the table it has just made, which is empty; nothing reads it later. The count is 2048 whatever is configured, and `pbkdf2_count` in owampd.conf has no effect. |
| C52 | `C52_second_share` | `OWPStatsParse` clears the reordering counts but not `rnumseqno`, the number of arrivals they are divided by: from the second summary of an object on (`owping` on a session in parts) the printed shares are too small. |
| C53 | `C53_second_from_zero` | After a summary `pend` still points to a freed packet record, so that the second summary of an object that starts with packet 0 makes `PacketAlloc` return NULL, which is dereferenced. |
| C65 | `C65_all_ttls` | `CalculateTtlStats` counts the TTL values in a `uint8_t`: if all 256 occur it reports none. |
| C53 | `C53_wrap` | The summary compares 64 bit time stamps as numbers: around the wrap of the time stamps (7 February 2036) a packet that arrives in time counts as overdue and the receiver's file is refused. |
| C54 | `C54_zero_refused` | `OWPParsePortRange` refuses "0", the first form its comment names; the tools only recognise the exact text "0" before they call it. |
| C54 | `C54_tail_ignored` | Text after the second port of a range is not noticed: "80-90,100" is read as 80-90. |
| C54 | `C54_beyond_range`, `C54_never_ends`, `C54_undefined` | The random number 0xffffffff gives the port after the range; if that port is in use and so are all others the search never ends; with a range up to 65535 the conversion is undefined. |
| C54 | `C54_full_range` | The number of ports of the range 0-65535 is stored as 0, and so a two-way server gives up when the port asked for is in use. |
| C55 | `C55_status_stale` | `OWPSessionStatus` leaves its result argument alone when that does not hold 0 on entry: a caller that passes −1 is not told that a session has ended. |
| C55 | `C55_failure_forgotten` | What local sessions reported is replaced by the accept value in the other side's stop message: a receiver that failed with a full disk still gives `OWPErrOK` and `OWP_CNTRL_ACCEPT`. |
| C55 | `C55_twoway_never_ok`, `C55_twoway_forgotten` | For the client of two-way sessions `OWPStopSessions` always returns `OWPErrFATAL`, and the failure of a session does not show in the accept value. |
| C59 | `C59_wraps`, `C59_wraps_iff`, `C59_check_never_fires` | The payload size wraps for paddings within the header size of 2^32: fewer bytes than a header are allocated and then written. The test for a packet size overflow can never fire. |
| C59 | `C59_reply_mismatch` | The length of a reply that a two-way client asks for is the length the reflector sends only if there is no padding. |
| C59 | `C59_no_delay_is_free`, `C59_sum_wraps` | A schedule without delays has packet rate 0, so the server asks its policy for 0 bits per second for a test that sends as fast as it can. The sum of the delays also wraps. |
| C66 | `C66_trailing_stay`, `C66_trailing_example` | The clean-up after a lost connection is to drop the lost records behind the last packet received. The number it takes for the last packet received counts lost packets, and the pass that drops starts where that number was computed: nothing is ever dropped unless only packet 0 is in the tail. |
| C66 | `C66_lock_kept` | When the clean-up leaves no record it goes to the next session without marking the file incomplete and without releasing its lock. |
| C66 | `C66_stops_at_failure` | One session that cannot be cleaned leaves the files of all sessions behind it as they were. |
| C67 | `C67_stopped_in_flush` | A two-way packet is recorded as lost before its timeout when the stop signal is noticed inside a flush: the flush moves its own time forward, as in one-way receivers. |
| C68 | `C68_undefined` | When a two-way test ends before its first wait for replies is over (stopped early, or every packet late), `flush_rc` is used without ever having had a value. |
| C68 | `C68_forged_end` | In open mode one datagram from any address, numbered above the last packet sent or with an invalid error estimate, ends the test early. The results are marked normal and the packets outstanding have no record. |
| C68 | `C68_short_end` | A datagram that is too short (or, in ciphered modes, has a bad digest), met while `errno` is `EINTR`, ends the wait after the last packet. The results are marked normal with packets unrecorded. |
| C68 | `C68_interrupted` | A packet whose `sendto` is interrupted by a signal is never counted as sent, and so no packet behind it is ever given up: losses behind it are not recorded. |
| C68 | `C68_skipped_unrecorded` | A packet that is skipped for being late has no record, and the results hold no skip ranges for it. |
| C69 | `C69_zero_time` | A reply that says it was received at time 0 is recorded as a reply but read as a loss. |
| C69 | `C69_padded` | In a session with padding the reply of the project's own reflector is shorter than the sender asks for. The test then goes on only because `errno` happens to be `EINTR`; otherwise the first reply ends the test. |
| C71 | `C71_stale` | The length of a datagram is checked only when `errno` is not `EINTR`. Otherwise a datagram that is too short, from the peer, is answered in open mode from what the last reply left in the buffer. |
| C71 | `C71_stranger_ends` | The size is checked before the sender's address. With `errno` not `EINTR` a datagram of another size from anyone ends the reflector. |
| C71 | `C71_stopped_fails` | A stop signal noticed between the arrival of a packet and the reply makes the process report failure. |
| C72 | `C72_error_as_zero` | When the sessions are over but stopping them fails, 0 is returned, not a negative value. |
| C72 | `C72_lost_wakeup` | A process that ends between the check of the sessions and `poll` wakes nobody: the wait goes on although no session runs. |
| C72 | `C72_wake_wraps` | The timeout is an `int` of milliseconds: a time to wake 2^32 ms ahead gives 0, and 1 is returned at once. |
| C72 | `C72_clock_error` | If the clock cannot be read, −1 is returned with severity OK. |
| C73 | `C73_skip_begin` | The first packet of a skip range counts as sent when the end of a session cut short is determined (`>` for `>=`). |
| C73 | `C73_setup_failure` | A failed set-up of the next session restarts the summaries of the running one but not its schedule: names with wrong times. |
| C73 | `C73_session_moved` | After that even the data file of the session can bear wrong times. |
| C73 | `C73_fetch_signal` | `SIGHUP` while the data of a summary are fetched: the program then uses the file it has just closed. |
| C74 | `C74_incomplete` | A summary gets its final name before its contents are in the file (`link` before `fflush`/`fclose`). |
| C74 | `C74_printed_missing` | The name of a summary of part of a session is printed even if the file could not get that name. |
| C74 | `C74_printed_unset` | With `-p`, a name never set is printed when the data file cannot be opened or copied, or the summary cannot be printed. |
| C74 | `C74_leftover` | A temporary summary left by a crash after the link shares its contents with the published file; opening it again empties that file. |
| C75 | `C75_synchronised` | Replies stamped by unsynchronised clocks are summarised as synchronised: the flag is looked at in records of lost packets only. |
| C75 | `C75_end_time` | The end of the period is overwritten by the flush of the packets back, with the time of an earlier packet. |
| C75 | `C75_lost_twice` | A packet recorded as lost twice counts as two packets sent. |
| C76 | `C76_crossed` | Results in which two packets overtook each other both on the way out and on the way back cannot be summarised. |
| C76 | `C76_late` | Packets count as passed by their schedule, not by the time they were sent: a reply recorded in time makes the summary impossible. |
| C76 | `C76_renumbered` | After a loss on the way out the reflector's numbers are behind; the packets after it cannot be summarised on their own. |
| C77 | `C77_orphan` | After the server has agreed, the client's schedule, policy or endpoint may fail; `OWPSessionRequest` then returns false, without an error for the first two, and the server keeps its session, to be started with the next ones |
| C78 | `C78_lower_case`, `C78_trailing` | `-D af11` is refused although `cs1`, `ef` and `Af11` are not: `toupper(tstr[0] == 'A')`. Blanks after the text are accepted after `CS` and `AF` names only |
| C79 | `C79_percentile_text` | text after a percentile is ignored: `-a 95x` is accepted as 95 |
| C79 | `C79_negative` | an interval below zero is accepted and becomes an interval of zero |
| C80 | `C80_slash` | a class name may have a `/`; the session files of `jail/x` go into a directory of `jail`, are charged to no class and cannot be fetched after a restart |
| C81 | `C81_groups` | with -U alone connections are served with root's group, and in every case with root's supplementary groups |
| C81 | `C81_setuid` | a server installed with the set-user-id bit of root and started by the user of -U keeps 0 as its saved user and can become root again |
| C82 | `C82_two` | the lock on the process file is that of the parent, which exits: two servers that detach themselves serve at once if their addresses differ |
| C82 | `C82_stale` | if the addresses are the same, the second fails but has replaced the number in the process file |
| C83 | `C83_unnoticed` | a signal to end between the test and `poll` is not noticed until a connection, message or other signal comes; that connection is accepted |
| C83 | `C83_stuck`, `C83_zero` | an alarm between the test and `sigsuspend` is lost, and with `dieby 0` none is set: with a child that does not end the server waits for ever |
| C83 | `C83_late` | the end of a child between the last `waitpid` and `owpd_chld = 0` is not noticed until the alarm |
| C84 | `C84_all_ttls` | if all 256 TTL values occur there is no table of them (their number is counted in 8 bits) |
| C84 | `C84_no_ttl` | if no packet came the report says that the least TTL is 255 and the greatest 0 |
| C84 | `C84_beyond` | if packets are reordered further than the buffers reach, the report says that none is reordered by one more than that (the summary for people says "not handled") |
| C85 | `C85_fraction` | a time in the last half millisecond of a second is printed with `.1000` after the seconds, which reads as a tenth of a second |
| C85 | `C85_seconds` | if seconds are asked for, no unit is printed after the delays (the case for `s` writes no name) |
| C85 | `C85_hops_wrong` | if all 256 TTL values occur the summary says that none was reported |
| C86 | `C86_cut` | a number of more than 32 bits in the configuration file is cut without a word: `maxcontrolsessions 4294967296` is no limit at all |
| C86 | `C86_text_after` | what follows a number is ignored (`dieby 1minute` is one second), and `-1` is taken as 2^32 - 1 |
| C86 | `C86_prefix` | a key that goes on after `maxcontrolsessions` (or, two-way, `testtimeout`) is taken for it, because the terminator is not compared |
| C86 | `C86_zero_after` | `-P 0` after a range in the file does not let the system choose: the server is left with the range from 0 to 0 |
| C86 | `C86_warn` | the level `WARN` that the example file lists is refused and the server does not start; the code knows `WARNING` |
| C86 | `C86_numbers_partial` | the default of `dieby` is 5 seconds in the code and 30 in the manual |
| C86 | `C86_no_mode` | with an empty list of modes the server starts and offers none, so that no client can use it |
| C87 | `C87_dead` | if the local address of a socket cannot be found after it was connected, the socket is closed while the server's record goes on to own its number, which is then closed a second time |
| C88 | `C88_taken` | if one address is in use, the server gives up although others may be free, and leaves the socket open |
| C89 | `C89_undefined` | a client whose file of pass-phrases has no line for the identity copies from a pointer that was never set |
| C89 | `C89_goes_on` | a client that has an identity but cannot open its file goes on without it in the open mode |
| C90 | `C90_too_many_packets` | when the packets per part times the number of parts reach 2³² the last part is refused |
| C90 | `C90_left_behind` | a part that cannot be summarised leaves its unfinished file behind |
| C90 | `C90_limit`, `C90_limited_summary` | `-v` with a number, documented to limit what is printed, limits the summary to that many records |
| C91 | `C91_no_results` | the status is 0 also when the results of the only session could not be fetched, and nothing is reported |
| C91 | `C91_file_left` | a refused session leaves the empty file that was made for its results |
| C91 | `C91_owfetch_status` | `owfetch` has status 0 even if it got none of the sessions |
| C92 | `C92_no_memory` | memory refused in the middle of a session is not noticed: `get_node` uses the null pointer |
| C93 | `C93_far_clock` | a two-way test with a reflector whose clock is 30 hours off: the numbers of the buckets of the ways out and back cannot be compared as the program does (`int` overflow in `BucketBufferSortCmp`); 60 hours off: the conversion of the bucket number to `int` is undefined. `C93_fits` says when neither happens |
| C94 | `C94_cut_silent` | the file of a finished session that lost its last byte: its header is refused, nothing is printed, not even the records that are there, and `do_stats` reports success |
| C95 | `C95_unix_negative` | with `-U` the number is printed with `%d` (without, with `%u`): the line of packet 2^31 begins `seq_no=-2147483648` |
| C96 | `C96_leak` | a stop message that names no session is accepted although one receives (the check after the loop looks at `*sptr`, which is not the list of receivers when no session is named or the last one named was the last of the list; cf. C17): the session is in no list any more, so neither `OWPControlClose` nor `OWPContextFree` ends it: its process is not told, its file not closed, the policy keeps its resources charged. `C96_once_partial`, `C96_close_partial` and `C96_finish_partial` ask that accepted messages name as many sessions as receive |
| C99 | `C99_out_of_turn` | `_OWPWriteTestRequest` and `_OWPWriteStartSessions` do not look at `_OWPStateTest`: a request for a session, or to start, goes out while sessions run; the server answers it by ending the connection |
| C102 | `C102_synchronised` | the report says `SYNC 1` though no clock was synchronised for any time stamp (see `C75_synchronised`) |
| C102 | `C102_end_time` | the report gives as time of the last packet that of an earlier one (see `C75_end_time`) |
| C102 | `C102_no_reply` | if no packet was answered the report gives 255 as the least TTL and 0 as the greatest, of both ways |
| C102 | `C102_all_ttls` | if all 256 TTL values occur on both ways there is no table of them (each number is counted in 8 bits) |
| C103 | `C103_synchronised` | an error is given though no clock was synchronised for any time stamp, where `(unsync)` is meant to stand |
| C103 | `C103_end_time` | the line `last:` gives the time of an earlier packet |
| C103 | `C103_all_ttls` | if all 256 TTL values occur the summary says that none was reported |
| C104 | `C104_open_mode` | a client of a class that forbids open mode, and was not offered it, is served in open mode in that class: `OWPControlAccept` accepts what was not offered (C18) and the hook does not look at the limit |
| C105 | `C105_stop_untimed`, `C105_two_way_untimed` | the timer is unset when sessions start, and `OWPStopSessionsWait` itself trades the messages that stop them: a client that says nothing after its test holds the connection for ever, whatever the control timeout |
| C105 | `C105_lost_alarm`, `C105_lost_end` | a timer that expires, or a signal that comes, between the reset of the flags and the `read` that waits is missed |
| C105 | `C105_child`, `C105_child_two_way` | a session process that ends while the server waits for the next request interrupts `OWPReadRequestType`, which takes the connection out of the request state: the next pass ends the connection with status 1 (one-way) or answers a request nobody made (two-way) |
| C106 | `C106_end_delay` | `-E` is read, checked and never used: `setEndDelay`, which guards its use, is set nowhere |
| C106 | `C106_negative`, `C106_truncated`, `C106_empty` | `-c -1` means 4294967295 packets, `-c 4294967297` means 1, `-c ''` means 0; the same holds for `-I`, `-s`, `-z` and `-N` |
| C106 | `C106_nan`, `C106_no_wait` | `-L nan` passes the check for a positive number; `-i 0` is accepted, and then there is no pause after a failure |
| C106 | `C106_status` | an unknown option ends powstream with status 0 |
| C107 | `C107_asymmetric` | twping computes its default padding from the set of modes it may use, not from the mode in use: with an identity and no `-A` the sizes are those of no mode, the padding is 0, and packets are shorter than their answers |
| C107 | `C107_unset`, `C107_negative`, `C107_empty` | `-s -1` means no padding, `-c -1` means 4294967295 packets, `-c ''` means 0 |
| C107 | `C107_two_classes` | `-D CS0 -D EF` is accepted although `-D` can be given only once |
| C107 | `C107_status` | an unknown option ends the program with status 0 |
| C107 | `C107_no_number` | `-a nan` is accepted as a percentile: neither comparison with 0 and 100 is true of it (`C107_percentiles_partial` states the range for all others) |
| C108 | `C108_unlimited` | (not against the property) a server whose file of limits is missing, for example because of a wrong directory, starts with a warning only, and gives every client everything |
| C109 | `C109_cut` | of a session that is not finished the server sends no loss records beyond the last arrival; the summary of a part that powstream fetches while nothing arrives any more leaves these packets out: two of four packets lost become none of two |
