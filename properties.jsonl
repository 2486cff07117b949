{"id": "C01", "title": "Fixed-point multiplication is exact modulo 2^64", "statement": "OWPNum64Mult(x,y) returns floor(x*y / 2^32) reduced modulo 2^64, with no intermediate carry lost.", "quantifier": "every pair of 64-bit values", "why_tests_cant": "2^128 operand pairs; a lost carry shows only for rare limb patterns", "anchors": ["owamp/owamp/owamp/arithm64.c:OWPNum64Mult"]}
{"id": "C02", "title": "Time unit conversions lose less than one unit and never move time forward", "statement": "Converting a normalised timespec (or timeval) to OWPNum64 and back gives the same seconds and a sub-second part that is equal or exactly one unit smaller; converting an OWPNum64 to a timespec and back never increases it and loses at most 5 units of 2^-32 s (1.17 ns); both conversions are monotone; the result of the back conversion is normalised.", "quantifier": "every 32-bit second count, every normalised sub-second count, every 64-bit time", "why_tests_cant": "rounding errors occur on scattered values in a 2^62 space", "anchors": ["owamp/owamp/owamp/arithm64.c:OWPNum64ToTimespec", "owamp/owamp/owamp/arithm64.c:OWPTimespecToNum64", "owamp/owamp/owamp/arithm64.c:OWPNum64ToTimeval", "owamp/owamp/owamp/arithm64.c:OWPTimevalToNum64", "owamp/owamp/owamp/arithm64.c:OWPUsecToNum64"]}
{"id": "C03", "title": "Timestamps and error estimates survive the wire", "statement": "Decoding an encoded timestamp gives the same 64-bit time; decoding an encoded error estimate gives the same multiplier, sync flag and scale (for scales the 6-bit field can carry); a zero multiplier is refused by the encoder and reported invalid by the decoder.", "quantifier": "every timestamp, every multiplier, scale and sync flag, every pair of wire bytes", "why_tests_cant": "all byte values must be covered jointly with the flag layout", "anchors": ["owamp/owamp/owamp/time.c:_OWPEncodeTimeStamp", "owamp/owamp/owamp/time.c:_OWPDecodeTimeStamp", "owamp/owamp/owamp/time.c:_OWPEncodeTimeStampErrEstimate", "owamp/owamp/owamp/time.c:_OWPDecodeTimeStampErrEstimate"]}
{"id": "C04", "title": "A recorded clock error never understates the clock's error", "statement": "When a timestamp is taken with a clock-error figure of e microseconds, the multiplier/scale stored in it denote at least e microseconds and exceed it by less than a factor 1 + 1/64 or so plus one unit; when no error figure is known the timestamp must not claim a small error after being sent and decoded.", "quantifier": "every error figure, and the no-information case, followed by wire encoding and decoding", "why_tests_cant": "the truncating shift loop loses different bits for each figure", "anchors": ["owamp/owamp/owamp/time.c:OWPTimespecToTimestamp", "owamp/owamp/owamp/time.c:OWPGetTimeStampError", "owamp/owamp/owamp/time.c:_OWPEncodeTimeStampErrEstimate"]}
{"id": "C05", "title": "Decoded error estimate equals multiplier * 2^(scale-32) seconds", "statement": "OWPGetTimeStampError returns multiplier*2^scale in units of 2^-32 s for every estimate that can arrive on the wire.", "quantifier": "every multiplier and every 6-bit scale", "why_tests_cant": "16k combinations with overflow only at the top", "anchors": ["owamp/owamp/owamp/time.c:OWPGetTimeStampError"]}
{"id": "C06", "title": "Both ends of a session compute the same send schedule", "statement": "The sequence of inter-packet delays produced from a session id and a list of slots depends on nothing else: a fresh context, a reset context and a context at the other host give the same delay for packet n, whatever calls happened before the reset.", "quantifier": "every SID, every valid slot list, every n, every history of calls before a reset", "why_tests_cant": "unbounded histories and lengths", "anchors": ["owamp/owamp/owamp/schedule.c:OWPScheduleContextCreate", "owamp/owamp/owamp/schedule.c:OWPScheduleContextReset", "owamp/owamp/owamp/schedule.c:OWPScheduleContextGenerateNextDelta"]}
{"id": "C07", "title": "Slots are used cyclically and literal slots are exact", "statement": "The delay before packet k uses slot k mod nslots; a literal slot contributes exactly its offset, so with literal slots only, packet k*nslots+r is scheduled at exactly k whole periods plus the first r+1 offsets.", "quantifier": "every slot list and every packet index", "why_tests_cant": "unbounded packet index", "anchors": ["owamp/owamp/owamp/schedule.c:OWPScheduleContextGenerateNextDelta"]}
{"id": "C08", "title": "The pseudo-random stream is AES counter mode read in 32-bit words", "statement": "The n-th uniform number drawn from a schedule context is the (n mod 4)-th big-endian 32-bit word of the block cipher applied to the 128-bit big-endian counter (n - n mod 4), keyed by the SID, including every carry across the 16 counter bytes.", "quantifier": "every key and every n below 2^128", "why_tests_cant": "carry chains and the cached block interact only after long runs", "anchors": ["owamp/owamp/owamp/schedule.c:OWPUnifRand64", "owamp/owamp/owamp/schedule.c:OWPExpContextCreate"]}
{"id": "C09", "title": "Exponential deviates follow the documented algorithm for every uniform stream", "statement": "OWPExpContextNext terminates for every uniform stream, consumes at least one word, returns the value specified by Knuth's algorithm S with the documented Q table (j*ln2 + U in the short case; (j + min of k uniforms)*ln2 otherwise), and the result is below (33)*ln2 in fixed point.", "quantifier": "every infinite stream of 32-bit words", "why_tests_cant": "table look-up limits are reached with probability 2^-32", "anchors": ["owamp/owamp/owamp/schedule.c:OWPExpContextNext"]}
{"id": "C10", "title": "Control messages decode to what was sent", "statement": "For each control-connection message (greeting, set-up response, server start, accept-session, start-sessions, start-ack, fetch-session, fetch-ack) the reader recovers exactly the field values given to the writer, in every session mode.", "quantifier": "every field value and every cipher/MAC that inverts/agrees", "why_tests_cant": "all field combinations and all chaining states", "anchors": ["owamp/owamp/owamp/protocol.c:_OWPWriteServerGreeting", "owamp/owamp/owamp/protocol.c:_OWPReadServerGreeting", "owamp/owamp/owamp/protocol.c:_OWPWriteAcceptSession", "owamp/owamp/owamp/protocol.c:_OWPReadAcceptSession", "owamp/owamp/owamp/protocol.c:_OWPWriteStartAck", "owamp/owamp/owamp/protocol.c:_OWPWriteFetchAck"]}
{"id": "C11", "title": "A test request and its schedule reach the server unchanged", "statement": "A test request written by the client is read by the server with identical addresses, ports, SID, padding, start time, timeout, type-P, packet count and slot list; a request with an unknown slot kind, reserved bytes set or a bad digest is refused.", "quantifier": "every specification with any number of slots", "why_tests_cant": "slot count is unbounded up to 2^32", "anchors": ["owamp/owamp/owamp/protocol.c:_OWPEncodeTestRequestPreamble", "owamp/owamp/owamp/protocol.c:_OWPDecodeTestRequestPreamble", "owamp/owamp/owamp/protocol.c:_OWPEncodeSlot", "owamp/owamp/owamp/protocol.c:_OWPDecodeSlot", "owamp/owamp/owamp/protocol.c:_OWPReadTestRequestSlots"]}
{"id": "C12", "title": "Data records survive storage", "statement": "A one-way record written in the current file version is read back identically; a two-way record is read back identically; the reader of old versions returns the stored fields with TTL 255.", "quantifier": "every record", "why_tests_cant": "byte layout with overlapping versions", "anchors": ["owamp/owamp/owamp/protocol.c:_OWPEncodeDataRecord", "owamp/owamp/owamp/protocol.c:_OWPDecodeDataRecord", "owamp/owamp/owamp/protocol.c:_OWPEncodeTWDataRecord", "owamp/owamp/owamp/protocol.c:_OWPDecodeTWDataRecord"]}
{"id": "C13", "title": "Encrypted control channels stay in step over any conversation", "statement": "If each side sends messages of any block lengths in any order over a ciphered control connection, the peer recovers exactly the plaintext blocks, independently in the two directions.", "quantifier": "every sequence of messages in both directions and every invertible block cipher", "why_tests_cant": "unbounded conversation; chaining state errors show up only in later messages", "anchors": ["owamp/owamp/owamp/io.c:_OWPSendBlocksIntr", "owamp/owamp/owamp/io.c:_OWPReceiveBlocksIntr", "owamp/owamp/owamp/io.c:_OWPEncryptBlocks", "owamp/owamp/owamp/io.c:_OWPDecryptBlocks"]}
{"id": "C14", "title": "The digest covers exactly the bytes since the previous digest", "statement": "In a ciphered mode a message is accepted iff its trailing digest equals the MAC of all blocks of that direction since the last verified digest; after verification the accumulator is empty again on both sides, so messages cannot be replayed, dropped, truncated or moved without the digests differing as MAC inputs.", "quantifier": "every conversation", "why_tests_cant": "unbounded histories", "anchors": ["owamp/owamp/owamp/io.c:_OWPSendHMACAdd", "owamp/owamp/owamp/io.c:_OWPSendHMACDigestClear", "owamp/owamp/owamp/io.c:_OWPRecvHMACAdd", "owamp/owamp/owamp/io.c:_OWPRecvHMACCheckClear"]}
{"id": "C15", "title": "Requests are only honoured in the protocol state that allows them", "statement": "A server connection honours a request type only in the state where the protocol allows it; any other request type or a failed read makes the connection unusable for all later requests.", "quantifier": "every sequence of request bytes and message outcomes", "why_tests_cant": "all interleavings of requests and failures", "anchors": ["owamp/owamp/owamp/protocol.c:OWPReadRequestType", "owamp/owamp/owamp/owampP.h:_OWPStateIs", "owamp/owamp/owamp/protocol.c:_OWPReadStartSessions", "owamp/owamp/owamp/protocol.c:_OWPReadStopSessions", "owamp/owamp/owamp/protocol.c:_OWPReadFetchSession"]}
{"id": "C16", "title": "Accepted skip lists are ordered and disjoint", "statement": "When a stop-sessions message is accepted, each session's skip ranges are in ascending order, disjoint and inside [0,next sequence number).", "quantifier": "every list of skip ranges a peer can send", "why_tests_cant": "adversarial unbounded lists", "anchors": ["owamp/owamp/owamp/protocol.c:_OWPReadStopSessions", "owamp/owamp/owamp/protocol.c:_OWPDecodeSkipRecord"]}
{"id": "C17", "title": "Stop-sessions must account for every receiving session", "statement": "A stop-sessions message is accepted only if it names each session this side is receiving exactly once.", "quantifier": "every set of sessions and every message", "why_tests_cant": "set/multiset corner cases", "anchors": ["owamp/owamp/owamp/protocol.c:_OWPReadStopSessions"]}
{"id": "C18", "title": "A session is only ever set up in a mode the server offered", "statement": "The server accepts a connection only in a single mode that it offered to that client; in particular a client whose limit class forbids open mode never gets an open-mode connection.", "quantifier": "every offered mode set and every client response", "why_tests_cant": "depends on combination of policy, offer and client choice", "anchors": ["owamp/owamp/owamp/sapi.c:OWPControlAccept", "owamp/owamp/owampd/owampd.c:NewConnection"]}
{"id": "C19", "title": "The client picks the strongest permitted common mode", "statement": "OWPControlOpen uses a mode that was both offered and requested, uses a ciphered mode only with a known pass-phrase, picks encrypted before authenticated before mixed before open, and never falls to a weaker mode while a stronger one is permitted by local policy.", "quantifier": "every offered and requested mode mask, pass-phrase availability and policy answer", "why_tests_cant": "full decision table with policy callbacks", "anchors": ["owamp/owamp/owamp/capi.c:OWPControlOpen"]}
{"id": "C20", "title": "Ciphered connections require proof of the shared secret", "statement": "The server accepts an authenticated, encrypted or mixed connection only if the named identity has a pass-phrase and the token decrypts, under the key derived from it and the server's salt, to the server's own fresh challenge; session keys on both sides then agree.", "quantifier": "every client response, pass-phrase table and challenge", "why_tests_cant": "adversarial responses", "anchors": ["owamp/owamp/owamp/sapi.c:OWPControlAccept", "owamp/owamp/owamp/capi.c:OWPControlOpen", "owamp/owamp/owamp/io.c:_OWPDecryptToken"]}
{"id": "C21", "title": "An open-mode client cannot aim server traffic at a third party", "statement": "In a mode without cipher, the server agrees to send test packets only to the address of the control client.", "quantifier": "every test request on an unauthenticated connection", "why_tests_cant": "all address pairs and request shapes", "anchors": ["owamp/owamp/owamp/sapi.c:OWPProcessTestRequest"]}
{"id": "C22", "title": "Every scheduled packet is sent in its window or listed as skipped", "statement": "When a sender finishes with next sequence number n, every packet below n was handed to the network exactly once, no earlier than its scheduled time and no later than that time plus the loss timeout, or it is covered by exactly one skip range; nothing at or above n was sent or skipped.", "quantifier": "every schedule, every clock behaviour, every sequence of send outcomes and interrupts", "why_tests_cant": "all timings and signal points", "anchors": ["owamp/owamp/owamp/endpoint.c:run_sender", "owamp/owamp/owamp/endpoint.c:skip"]}
{"id": "C23", "title": "The sender's skip list is canonical", "statement": "The reported skip ranges are non-empty, strictly ascending and non-adjacent, so the list is the shortest one covering the skipped packets.", "quantifier": "every pattern of missed deadlines", "why_tests_cant": "unbounded patterns", "anchors": ["owamp/owamp/owamp/endpoint.c:skip"]}
{"id": "C24", "title": "Every packet gets exactly one verdict at the receiver", "statement": "When the receiver has passed sequence number b, each sequence number below b has either exactly one lost record and no received record, or at least one received record and no lost record; lost records appear in ascending sequence order; no record names a packet at or above the packet count.", "quantifier": "every arrival order, duplication, loss and clock", "why_tests_cant": "unbounded arrival patterns", "anchors": ["owamp/owamp/owamp/endpoint.c:run_receiver", "owamp/owamp/owamp/endpoint.c:flush_lost", "owamp/owamp/owamp/endpoint.c:get_node"]}
{"id": "C25", "title": "A packet is declared lost only after its timeout", "statement": "A lost record for a packet is written only when the receiver's clock has passed that packet's scheduled send time by more than the loss timeout, and the record carries that scheduled time.", "quantifier": "every arrival sequence and clock", "why_tests_cant": "timing-dependent", "anchors": ["owamp/owamp/owamp/endpoint.c:flush_lost"]}
{"id": "C26", "title": "Only genuine, timely packets are recorded", "statement": "A received record is written only for a packet from the expected peer address whose digest is valid (in ciphered modes), whose number is below the packet count and not already given up, and whose send time is within the timeout of both the scheduled and the receive time; rejected packets leave the results unchanged.", "quantifier": "every received datagram", "why_tests_cant": "adversarial datagrams", "anchors": ["owamp/owamp/owamp/endpoint.c:run_receiver"]}
{"id": "C27", "title": "A receiver stopped by its control connection has accounted for all due packets", "statement": "When a receiver ends because the session was stopped, every packet whose scheduled time plus timeout has passed has a verdict in the file.", "quantifier": "every stop time", "why_tests_cant": "signal point arbitrary", "anchors": ["owamp/owamp/owamp/endpoint.c:run_receiver"]}
{"id": "C28", "title": "Test packets are understood by the other end", "statement": "In each mode the receiver recovers from a sender's packet the sequence number, timestamp and error estimate put there; the digest over the packet verifies; in encrypted mode nothing but ciphertext of the header is sent.", "quantifier": "every sequence number, timestamp, key and mode", "why_tests_cant": "all byte layouts and cipher states", "anchors": ["owamp/owamp/owamp/endpoint.c:run_sender", "owamp/owamp/owamp/endpoint.c:run_receiver"]}
{"id": "C29", "title": "Both ends derive the same test-session keys", "statement": "The keys used for the test packets are a function of the control session keys and the SID only, so sender and receiver, on either side of the connection, use the same keys.", "quantifier": "every session key and SID", "why_tests_cant": "two roles, three modes", "anchors": ["owamp/owamp/owamp/endpoint.c:_OWPEndpointInitHook"]}
{"id": "C30", "title": "Clean-up keeps exactly the records of packets known to have been sent in time", "statement": "After a session stops normally, the stored file contains, in the original order, exactly those records whose number is below the sender's next sequence number and whose send time is not within the timeout of the stop time; a received record for a packet the sender claims not to have sent makes the session invalid.", "quantifier": "every record list, stop time and next sequence number", "why_tests_cant": "search over arbitrary lists", "anchors": ["owamp/owamp/owamp/api.c:_OWPCleanDataRecs"]}
{"id": "C31", "title": "Locating the tail of a record file always terminates inside the file", "statement": "For every sorted record list the search for the first record to examine ends after finitely many probes, never probes outside the file, and never skips a record that should be dropped.", "quantifier": "every sorted record list and threshold", "why_tests_cant": "non-termination needs a particular equal-time pattern", "anchors": ["owamp/owamp/owamp/api.c:_OWPCleanDataRecs"]}
{"id": "C32", "title": "Data-file header round-trips", "statement": "A header written with OWPWriteDataHeader is read back by OWPReadDataHeader and OWPReadDataHeaderSlots with identical fields, slots and offsets.", "quantifier": "every header and slot list", "why_tests_cant": "unbounded slot lists, offset arithmetic", "anchors": ["owamp/owamp/owamp/api.c:OWPWriteDataHeader", "owamp/owamp/owamp/api.c:OWPReadDataHeader", "owamp/owamp/owamp/api.c:OWPReadDataHeaderSlots"]}
{"id": "C33", "title": "Records written are the records read, in order", "statement": "After writing a header and any number of records, OWPParseRecords delivers exactly these records in order to the callback, stops early exactly when the callback says so, and reports an error iff the callback or a read fails.", "quantifier": "every record list and callback", "why_tests_cant": "unbounded lists", "anchors": ["owamp/owamp/owamp/api.c:OWPWriteDataRecord", "owamp/owamp/owamp/api.c:OWPParseRecords"]}
{"id": "C34", "title": "A data file cut short by a crash still yields a correct prefix", "statement": "If the writing process dies at any byte, a reader either rejects the file or reads an exact prefix of the records written; it never sees a record that was not written.", "quantifier": "every byte position of a crash, at every stage of the file's life", "why_tests_cant": "every crash point", "anchors": ["owamp/owamp/owamp/api.c:_OWPReadDataHeaderInitial", "owamp/owamp/owamp/api.c:OWPReadDataHeader", "owamp/owamp/owamp/api.c:_OWPWriteDataHeaderNumSkipRecs", "owamp/owamp/owamp/protocol.c:_OWPReadStopSessions"]}
{"id": "C35", "title": "Disk-space estimates bound the real file size", "statement": "OWPTestDiskspace(spec) is at least the size of a file holding the header and one record per packet.", "quantifier": "every test specification", "why_tests_cant": "overflow beyond 2^32 bytes", "anchors": ["owamp/owamp/owamp/api.c:OWPTestDiskspace"]}
{"id": "C36", "title": "A fetch returns exactly the stored records in the requested range", "statement": "OWPFetchSession yields a file whose records are the server's stored records with begin <= seq <= end in order, with the server's skip ranges and schedule.", "quantifier": "every stored session and every range", "why_tests_cant": "unbounded records, buffer boundaries every 16 records", "anchors": ["owamp/owamp/owamp/sapi.c:OWPProcessFetchSession", "owamp/owamp/owamp/capi.c:OWPFetchSession"]}
{"id": "C37", "title": "Server and client agree on the framing of a fetched session", "statement": "The number of 16-byte blocks the server sends for n records, m skip ranges and k slots equals the number the client reads, for all n, m, k, so the connection stays in step.", "quantifier": "every n, m and k", "why_tests_cant": "remainder cases in three loops", "anchors": ["owamp/owamp/owamp/sapi.c:OWPProcessFetchSession", "owamp/owamp/owamp/capi.c:OWPFetchSession"]}
{"id": "C38", "title": "A complete fetch is refused while the session is unfinished", "statement": "A request for the complete session is never answered positively unless the stored session is marked as finished normally; a session marked as failed is never returned.", "quantifier": "every file state and range", "why_tests_cant": "timing of a concurrent writer", "anchors": ["owamp/owamp/owamp/sapi.c:OWPProcessFetchSession"]}
{"id": "C39", "title": "A resource grant keeps every class within its limits", "statement": "Starting from zero usage, after any sequence of requests and releases by any classes, the recorded use of each limited resource in each class equals the sum of outstanding grants in its sub-tree and never exceeds its limit.", "quantifier": "every class tree, every request sequence", "why_tests_cant": "unbounded histories and trees", "anchors": ["owamp/owamp/owampd/policy.c:IntegerResourceDemand", "owamp/owamp/owampd/policy.c:OWPDResourceDemand"]}
{"id": "C40", "title": "A denied resource request changes nothing", "statement": "If a request is denied at any level of the class hierarchy, no usage counter anywhere is changed; granting and then releasing the same amount restores all counters.", "quantifier": "every tree, request and prior usage", "why_tests_cant": "all-or-nothing on error paths", "anchors": ["owamp/owamp/owampd/policy.c:IntegerResourceDemand"]}
{"id": "C41", "title": "Sub-classes inherit limits", "statement": "A class that does not set a limit has its parent's value for it; a class definition that names an unknown parent, repeats a name, or repeats a limit is refused; the first class is the root of every class.", "quantifier": "every limits file", "why_tests_cant": "unbounded files", "anchors": ["owamp/owamp/owampd/policy.c:parselimitline"]}
{"id": "C42", "title": "Addresses are classified by longest matching prefix", "statement": "A client address is put in the class of the assigned network with the longest prefix containing it, or the default class when none contains it.", "quantifier": "every address and every assignment table", "why_tests_cant": "2^128 addresses", "anchors": ["owamp/owamp/owampd/policy.c:GetNodeFromAddr"]}
{"id": "C43", "title": "A user is held to the class assigned to them", "statement": "A connection authenticated as a user with an assigned class is charged to that class.", "quantifier": "every user name field received and every limits file", "why_tests_cant": "adversarial user field bytes", "anchors": ["owamp/owamp/owampd/policy.c:OWPDCheckControlPolicy", "owamp/owamp/owampd/policy.c:GetNodeFromUserID"]}
{"id": "C44", "title": "Child/parent resource messages are understood", "statement": "A resource query, its class announcement and its answer are decoded by the other process exactly as sent, and damaged frames are rejected.", "quantifier": "every message and every 28-byte frame", "why_tests_cant": "all byte strings", "anchors": ["owamp/owamp/owampd/policy.c:OWPDQuery", "owamp/owamp/owampd/policy.c:OWPDReadQuery", "owamp/owamp/owampd/policy.c:OWPDReadClass", "owamp/owamp/owampd/policy.c:OWPDSendResponse"]}
{"id": "C45", "title": "A finished session gives back what it took", "statement": "For each test session, after completion and file closing, the bandwidth held is released and the disk space charged equals the size of the file left on disk (zero if deleted).", "quantifier": "every session life cycle, including denial and failure", "why_tests_cant": "all life-cycle paths", "anchors": ["owamp/owamp/owampd/policy.c:OWPDCheckTestPolicy", "owamp/owamp/owampd/policy.c:OWPDTestComplete", "owamp/owamp/owampd/policy.c:OWPDCloseFile"]}
{"id": "C46", "title": "Session files are deleted only after a complete successful fetch", "statement": "A stored session file is removed on fetch only if the whole session was requested, the fetch succeeded and the file's class has delete_on_fetch.", "quantifier": "every fetch range, outcome and class", "why_tests_cant": "combinations of outcome and policy", "anchors": ["owamp/owamp/owampd/policy.c:OWPDCloseFile"]}
{"id": "C47", "title": "The number of control sessions stays within the configured maximum", "statement": "At no time does the daemon serve more than the configured maximum number of control connections, and every terminated child frees its place.", "quantifier": "every sequence of connections and terminations", "why_tests_cant": "unbounded histories", "anchors": ["owamp/owamp/owampd/owampd.c:NewConnection", "owamp/owamp/owampd/owampd.c:AllocChldState", "owamp/owamp/owampd/owampd.c:FreeChldState"]}
{"id": "C48", "title": "Bandwidth of a dead connection is returned", "statement": "When the process serving a connection ends for whatever reason, the temporary resources it held are released.", "quantifier": "every termination point", "why_tests_cant": "crash points", "anchors": ["owamp/owamp/owampd/owampd.c:FreeChldState", "owamp/owamp/owampd/policy.h"]}
{"id": "C49", "title": "Configuration values read back as last set", "statement": "OWPContextConfigGet returns the value most recently set for that key, or nothing if it was never set or was deleted, independent of other keys.", "quantifier": "every sequence of set and delete calls", "why_tests_cant": "unbounded histories", "anchors": ["owamp/owamp/owamp/context.c:OWPContextConfigSetV", "owamp/owamp/owamp/context.c:OWPContextConfigGetV", "owamp/owamp/owamp/context.c:OWPContextConfigDelete"]}
{"id": "C50", "title": "Summary counts are the true counts", "statement": "After OWPStatsParse, sent is the number of distinct packets with records in the range and not skipped, lost the number of those marked lost, and duplicates the number of extra copies.", "quantifier": "every record file the receiver can write and every range", "why_tests_cant": "unbounded lists with a sliding window", "anchors": ["owamp/owamp/owamp/stats.c:OWPStatsParse", "owamp/owamp/owamp/stats.c:IterateSummarizeSession", "owamp/owamp/owamp/stats.c:PacketBeginFlush", "owamp/owamp/owamp/stats.c:PacketGet"]}
{"id": "C51", "title": "Percentiles treat lost packets as infinite delay", "statement": "The alpha percentile reported is the smallest histogram bucket at or below which at least alpha*sent packets arrived, and none is reported when fewer than alpha*sent arrived.", "quantifier": "every histogram and alpha", "why_tests_cant": "unbounded data", "anchors": ["owamp/owamp/owamp/stats.c:BucketBufferSortPercentile", "owamp/owamp/owamp/stats.c:BucketIncrementDelay"]}
{"id": "C52", "title": "n-reordering follows its definition", "statement": "The j-th reordering count is the number of received packets that arrived after at least j immediately preceding packets all with larger numbers.", "quantifier": "every arrival sequence", "why_tests_cant": "unbounded sequences, ring buffer", "anchors": ["owamp/owamp/owamp/stats.c:IterateSummarizeSession"]}
{"id": "C53", "title": "Any file the receiver writes can be summarised", "statement": "OWPStatsParse succeeds on every session file produced by a receiver, and a second summary of the same object gives the same answer.", "quantifier": "every session file and repeated use", "why_tests_cant": "rare late-and-slow packets; object reuse", "anchors": ["owamp/owamp/owamp/stats.c:IterateSummarizeSession", "owamp/owamp/owamp/stats.c:OWPStatsParse", "owamp/owamp/owamp/stats.c:PacketAlloc"]}
{"id": "C54", "title": "Port ranges are parsed as documented and ports chosen inside them", "statement": "A port-range string is accepted iff it is 0, a single port, or low-high with low<=high; a test socket's port lies inside the range and the search ends after trying every port once.", "quantifier": "every string, every random value, every set of ports in use", "why_tests_cant": "random boundary values with probability 2^-32", "anchors": ["owamp/owamp/owamp/capi.c:OWPParsePortRange", "owamp/owamp/owampd/owampd.c:parse_ports", "owamp/owamp/owamp/endpoint.c:_OWPEndpointInit"]}
{"id": "C55", "title": "Session status and stop results are worst-case over sessions", "statement": "OWPSessionsActive counts exactly the endpoints still running and reports the worst of their results; stopping all sessions reports an error if any failed.", "quantifier": "every list of sessions and endpoint outcomes", "why_tests_cant": "unbounded lists and orders", "anchors": ["owamp/owamp/owamp/api.c:OWPSessionStatus", "owamp/owamp/owamp/api.c:OWPSessionsActive", "owamp/owamp/owamp/endpoint.c:_OWPEndpointStatus", "owamp/owamp/owamp/endpoint.c:_OWPEndpointStop"]}
{"id": "C56", "title": "The client starts sending only after the server agreed", "statement": "OWPStartSessions starts every local receiver before it reads the server's answer, and starts local senders only after a positive start acknowledgement; the server gives that answer only after it has started all its endpoints. So no client sender starts before every endpoint of the server has been started, in any order in which the two may run.", "quantifier": "every list of sessions on both sides, every server answer, every failure, every interleaving of client and server", "why_tests_cant": "ordering under failure", "anchors": ["owamp/owamp/owamp/capi.c:OWPStartSessions"]}
{"id": "C57", "title": "The reflected packet carries what the sender and reflector saw", "statement": "In each mode the two-way sender recovers from a reply its own sequence number, send time and error estimate, the reflector's times, sequence number and the TTL seen.", "quantifier": "every value, key and mode", "why_tests_cant": "byte layouts and cipher states", "anchors": ["owamp/owamp/owamp/endpoint.c:run_reflector", "owamp/owamp/owamp/endpoint.c:run_tw_test"]}
{"id": "C58", "title": "Block cipher decryption inverts encryption", "statement": "For every key and every block, rijndaelDecrypt(rijndaelEncrypt(block)) = block with the key schedules the library prepares from the key.", "quantifier": "every 128-bit key and block", "why_tests_cant": "2^256 pairs", "anchors": ["owamp/owamp/owamp/rijndael-alg-fst.c:rijndaelEncrypt", "owamp/owamp/owamp/rijndael-alg-fst.c:rijndaelDecrypt", "owamp/owamp/owamp/rijndael-alg-fst.c:rijndaelKeySetupEnc", "owamp/owamp/owamp/rijndael-alg-fst.c:rijndaelKeySetupDec"]}
{"id": "C59", "title": "Packet sizes and rates are computed consistently", "statement": "The payload size computed for a session equals the length of the packets the sender emits in that mode plus padding, and is enough for every field the receiver reads.", "quantifier": "every mode and padding", "why_tests_cant": "overflow at extreme padding", "anchors": ["owamp/owamp/owamp/api.c:OWPTestPayloadSize", "owamp/owamp/owamp/api.c:OWPTestTWPayloadSize", "owamp/owamp/owamp/endpoint.c:run_sender"]}
{"id": "C60", "title": "Time arithmetic macros are exact", "statement": "Comparison, addition, subtraction and absolute difference of normalised timespec values are exact and normalised; reading a synchronised clock adds the kernel's offset exactly and never reports a zero error.", "quantifier": "every pair of normalised times, every NTP offset", "why_tests_cant": "carry and borrow cases at every boundary", "anchors": ["owamp/owamp/owamp/owamp.h:timespecadd", "owamp/owamp/owamp/owamp.h:timespecsub", "owamp/owamp/owamp/owamp.h:timespecdiff", "owamp/owamp/owamp/time.c:_OWPGetTimespec"]}
{"id": "C61", "title": "Parsing the limits file stays in bounds", "statement": "Parsing a limits file reads and writes only the line and the arrays it was given: no setting makes it look beyond the end of the line, and no class gets more limits than the arrays hold.", "quantifier": "every limits file", "why_tests_cant": "unbounded files; reads beyond a buffer usually go unnoticed", "anchors": ["owamp/owamp/owampd/policy.c:parselimitline", "owamp/owamp/owampd/policy.c:parselimits"]}
{"id": "C62", "title": "A control connection gets no more test sessions than its class allows", "statement": "On one control connection at most as many test sessions are granted as the test_sessions limit of the class of the connection, or of any class above it, says, whatever is requested and however the sessions end; and as long as fewer were granted the limit refuses none.", "quantifier": "every sequence of requests and ends of sessions, every class tree, every answer of the daemon", "why_tests_cant": "unbounded histories over arbitrary class trees", "anchors": ["owamp/owamp/owampd/policy.c:OWPDCheckTestPolicy", "owamp/owamp/owampd/policy.c:OWPDResourceDemand"]}
{"id": "C63", "title": "The configured key-derivation count is used", "statement": "The PBKDF2 iteration count configured for a context (OWPKeyDerivationCount, pbkdf2_count of the daemon) is the one the server offers in its greeting and uses to derive keys.", "quantifier": "every configured count and sequence of configuration calls", "why_tests_cant": "every history of configuration calls before a connection", "anchors": ["owamp/owamp/owamp/context.c:OWPContextCreate", "owamp/owamp/owamp/context.c:OWPContextConfigSetU32", "owamp/owamp/owamp/sapi.c:OWPControlAccept"]}
{"id": "C64", "title": "Consecutive partial summaries miss no record", "statement": "When a session is summarised in consecutive packet ranges, each from the file offset left by the range before (as powstream and owping do, also while records are still being added), every range's summary reports the same figures as a summary of that range made by a fresh object from the whole file.", "quantifier": "every record file a receiver can write, every list of consecutive ranges, every point at which the file grows", "why_tests_cant": "unbounded chains of ranges over reordered records", "anchors": ["owamp/owamp/owamp/stats.c:OWPStatsParse", "owamp/owamp/owamp/stats.c:IterateSummarizeSession", "owamp/owamp/powstream/powstream.c:main", "owamp/owamp/owping/owping.c:do_stats"]}
{"id": "C65", "title": "Times, delays, TTLs and error of a summary are those of the records", "statement": "Start and end time of a summary are the scheduled times of the first and last packet of the range, the least and greatest delay and the error bound are those of the records, the clocks are called synchronised only if they were for every record, and the number, least and greatest of the TTL values are those that occur.", "quantifier": "every record file and range", "why_tests_cant": "unbounded files; all 256 TTL values", "anchors": ["owamp/owamp/owamp/stats.c:IterateSummarizeSession", "owamp/owamp/owamp/stats.c:CalculateTtlStats", "owamp/owamp/owamp/stats.c:OWPStatsParse"]}
{"id": "C66", "title": "Clean-up after a lost control connection keeps what was received and nothing behind it", "statement": "When the control connection is lost without a stop message, every receiving session's file is left with, in the original order, the records of packets sent by the time of the loss less the timeout, without the lost ones numbered above the last packet received; it is marked incomplete and its lock is released.", "quantifier": "every set of sessions, every record file a receiver can write, every time of the loss", "why_tests_cant": "unbounded files and every point at which a connection can break", "anchors": ["owamp/owamp/owamp/api.c:_OWPCleanUpSessions", "owamp/owamp/owamp/api.c:GetMaxRecv", "owamp/owamp/owamp/api.c:_OWPCleanDataRecs"]}
{"id": "C67", "title": "A two-way test records at most one fate per packet", "statement": "In the results of a two-way test no packet is recorded both as lost and as answered, none is recorded as lost twice, lost packets are recorded in order, and a packet is recorded as lost only after it was sent and the loss timeout has passed.", "quantifier": "every sequence of replies, clock readings, send failures, wake-ups and signals", "why_tests_cant": "unbounded interleavings of sending, replies and signals", "anchors": ["owamp/owamp/owamp/endpoint.c:run_tw_test", "owamp/owamp/owamp/endpoint.c:flush_lost"]}
{"id": "C68", "title": "A finished two-way test accounts for every packet sent", "statement": "When a two-way test ends and its results are marked as normal, every packet of the session was sent (or skipped for being late) and every packet that was sent has a record: its replies, or that it was lost.", "quantifier": "every sequence of replies, clock readings, send failures, wake-ups and signals", "why_tests_cant": "every way a test can come to its end", "anchors": ["owamp/owamp/owamp/endpoint.c:run_tw_test", "owamp/owamp/owamp/endpoint.c:flush_lost"]}
{"id": "C69", "title": "Two-way results hold exactly the genuine replies", "statement": "Every reply in the results is a datagram that was received, was valid under the session's keys and answered a packet already sent, recorded with the numbers, times, estimates and TTLs it carried and the time it came back; and every such reply that arrives before its packet is given up is recorded.", "quantifier": "every datagram in every state of the test, every mode", "why_tests_cant": "all datagrams, all orders of arrival", "anchors": ["owamp/owamp/owamp/endpoint.c:run_tw_test", "owamp/owamp/owamp/endpoint.c:run_reflector"]}
{"id": "C70", "title": "A two-way test sends each packet once, in its time", "statement": "A two-way test hands each packet of its schedule to the network once, after its scheduled time and no more than the timeout after it, or skips it; whatever replies came in between, each packet has the session's size and the reflector recovers from it its number and the time it was sent.", "quantifier": "every schedule, sequence of clock readings, replies, send failures and signals, every mode and padding", "why_tests_cant": "unbounded interleavings; buffer shared with the replies", "anchors": ["owamp/owamp/owamp/endpoint.c:run_tw_test"]}
{"id": "C71", "title": "A reflector answers exactly the genuine packets of its peer, once each and in order", "statement": "The reflecting side of a two-way test sends packets only to its peer, at most one reply to each datagram received, in the order of arrival, numbered 0, 1, 2 and so on; each is made from the datagram it answers, which was valid under the session's keys, and the other side reads in it the number, time and estimate of that datagram, its TTL, the time it arrived and the time of the reply. A valid packet that arrives while nothing disturbs the process is answered.", "quantifier": "every sequence of datagrams from anyone, clock readings, send failures and signals, every mode and padding", "why_tests_cant": "every datagram and interleaving; the reply is built in the buffer of the packet", "anchors": ["owamp/owamp/owamp/endpoint.c:run_reflector"]}
{"id": "C72", "title": "Waiting for sessions to end returns when and only when it says it does", "statement": "OWPStopSessionsWait returns 1 only when the time to wake has come, 2 only on a signal the caller asked for or with a time to wake given, and then the sessions go on undisturbed; with neither it returns neither. When it returns 0 no process of the sessions is left, and if it reports no error the peer's stop message was received and answered; errors are reported by a negative value. When the sessions are over, or one has failed, it stops them.", "quantifier": "every set of sessions, every order of process ends, signals, messages and clock readings", "why_tests_cant": "every interleaving of process ends with poll and of signals with messages", "anchors": ["owamp/owamp/owamp/api.c:OWPStopSessionsWait", "owamp/owamp/owamp/api.c:OWPStopSessions", "owamp/owamp/owamp/api.c:OWPSessionsActive", "owamp/owamp/owamp/owamp.h:OWPStopSessionsWait"]}
{"id": "C73", "title": "The names of powstream's files say which packets are in them", "statement": "The data file and the summary of a complete session bear the session's start time and the time its last packet is due; every summary of part of a session covers as many packets as asked for, from a multiple of that number, and bears the times these packets are due; the file of a session cut short ends when the last packet sent that is in it is due. A session starts when the one before it ends, unless that time can no longer be met, and then later.", "quantifier": "every schedule, loss timeout, sequence of set-ups, failures, signals, clock readings and ends of sessions", "why_tests_cant": "unbounded histories of two sessions in turn, signals at any moment", "anchors": ["owamp/owamp/powstream/powstream.c:main", "owamp/owamp/powstream/powstream.c:SetupSession", "owamp/owamp/powstream/powstream.c:write_session", "owamp/owamp/powstream/powstream.c:sig_check", "owamp/owamp/powstream/powstream.c:CloseSessions", "owamp/owamp/powstream/powstream.c:ResetSession"]}
{"id": "C74", "title": "What powstream publishes under a final name is whole and stays as it is", "statement": "At every moment, so also after a crash, a file found under a final name is complete; a file published before is never changed; a name printed for the user is that of a complete file.", "quantifier": "every crash point, every failure of open, copy, link, write and unlink, every content of the directory", "why_tests_cant": "every crash point between system calls", "anchors": ["owamp/owamp/powstream/powstream.c:write_session", "owamp/owamp/powstream/powstream.c:main"]}
{"id": "C75", "title": "The summary of a two-way session is true to its records", "statement": "When a range of packets of a two-way session is summarised, the packets sent and lost, the duplicates of either way, the least and greatest round-trip, outward, return and reflector times, the percentiles, errors and TTLs, the start and end of the period and the report on the clocks are those of the records of these packets, whatever their order, duplicates and reordering.", "quantifier": "every session file, schedule, range and order of records", "why_tests_cant": "every order of records and every pattern of loss, duplication and reordering both ways", "anchors": ["owamp/owamp/owamp/stats.c:OWPStatsParse", "owamp/owamp/owamp/stats.c:IterateSummarizeTWSession", "owamp/owamp/owamp/stats.c:PacketGet", "owamp/owamp/owamp/stats.c:PacketBeginFlush", "owamp/owamp/owamp/stats.c:BucketBufferSortPercentile"]}
{"id": "C76", "title": "Whatever a two-way test records can be summarised", "statement": "The results that a two-way test writes can be summarised, for every range of its packets; a summary is refused only for records that no test could have written.", "quantifier": "every order in which replies come back, every delay of sending, every range", "why_tests_cant": "every interleaving of packets and replies in both directions", "anchors": ["owamp/owamp/owamp/stats.c:OWPStatsParse", "owamp/owamp/owamp/stats.c:IterateSummarizeTWSession", "owamp/owamp/owamp/stats.c:PacketGet", "owamp/owamp/owamp/endpoint.c:run_tw_test"]}
{"id": "C77", "title": "A session asked for exists on both sides or on neither", "statement": "A client that asks for a session uses a pair of the addresses named by the caller that are of one family and allowed, IPv6 if possible, and says 'incompatible' only if there is none. When the call succeeds, exactly one session is added on each side; both have the same identifier and the same parameters, one sends and the other receives (or reflects), the server knows the client's address and port, and the client knows the port of the server's socket. When the server refuses, the call returns false without an error, neither side has a session, and the connection can be used for another request. Over any number of requests the sessions of the two sides correspond one to one.", "quantifier": "every list of addresses, specification, mode and kind of connection, every decision of the server's policy and failure of its sockets, every failure of the client's own steps, and any number of requests", "why_tests_cant": "the outcome depends on the combination of the decisions and failures of two parties and on every message of the exchange; a test sees a few of them", "anchors": ["owamp/owamp/owamp/capi.c:OWPSessionRequest", "owamp/owamp/owamp/capi.c:_OWPClientRequestTestReadResponse", "owamp/owamp/owamp/sapi.c:OWPProcessTestRequest", "owamp/owamp/owamp/sapi.c:OWPProcessTestRequestTW", "owamp/owamp/owamp/protocol.c:_OWPWriteTestRequest", "owamp/owamp/owamp/protocol.c:_OWPReadAcceptSession"]}
{"id": "C78", "title": "The traffic class asked for on the command line is that of the packets", "statement": "A number below 64 in the notation of C or a name of RFC 4594 in any case, given to owping or twping as DSCP, becomes exactly that code point in every packet the sending or reflecting socket sends, with no other bit of the byte set, and in the report; any other text is refused, and an end that sends or reflects refuses a session whose packet type is no code point.", "quantifier": "every text and every 32-bit packet type", "why_tests_cant": "all texts: every base, sign, number of digits, case, blank and suffix", "anchors": ["owamp/owamp/owping/owping.c:parse_typeP", "owamp/owamp/owamp/endpoint.c:_OWPEndpointInit", "owamp/owamp/owamp/stats.c:OWPStatsPrintMachine"]}
{"id": "C79", "title": "A test is what the command line says", "statement": "The schedule given to the client with -i is accepted exactly when it is a list of intervals separated by commas, each a number alone or followed by e (exponentially distributed) or f (fixed), and then it is those intervals in that order. The percentiles given with -a are accepted exactly when they are numbers from 0 to 100 separated by commas. The modes a connection may use are exactly those whose letters are given with -A, any other letter being refused; without -A they are all modes when there is an identity and only the open mode otherwise. The sessions start at least a second and as many round-trip bounds as there are exchanges left after the clock was read, and not before the delay asked for.", "quantifier": "every text, every list, every set of letters, every clock, round-trip bound and delay that do not overflow", "why_tests_cant": "the texts are unbounded, and a dropped or misread element shows only in the packets of a long test", "anchors": ["owamp/owamp/owping/owping.c:parse_slots", "owamp/owamp/owping/owping.c:parse_percentile", "owamp/owamp/owping/owping.c:owp_set_auth", "owamp/owamp/owping/owping.c:main"]}
{"id": "C80", "title": "A server that is started again knows its session files", "statement": "When owampd is started with a data directory left by an earlier run, every class with a limit on disk space is charged exactly the sizes of the session files recorded by it and its subclasses, and no other limit or counter differs from the limits file; the catalog then has exactly one entry for each of these files, which leads to it, so each can be fetched and is taken for one of the class that recorded it. The start fails exactly if a class's directory is found where the limits file has no such class or if two of these files have the same name.", "quantifier": "every set of classes, every tree of directories and files, every order in which the directories are read", "why_tests_cant": "every shape of class hierarchy and of directory tree left behind, including foreign files and classes that were removed or moved", "anchors": ["owamp/owamp/owampd/policy.c:OWPDPolicyPostInstall", "owamp/owamp/owampd/policy.c:InitializeDiskUsage", "owamp/owamp/owampd/policy.c:verify_datadir", "owamp/owamp/owampd/policy.c:node_dir", "owamp/owamp/owampd/policy.c:OWPDOpenFile"]}
{"id": "C81", "title": "A server started as root serves as somebody else", "statement": "A server started by root serves connections, reads the data directory and writes session files as the user given with -U or in the configuration, with the group given with -G, and with none of root's identities or groups, and no call it could make afterwards gives them back. It does not start if the user or group does not exist, nor, unless that is explicitly allowed, as root. A server not started by root keeps the identity it was started with.", "quantifier": "every set of users and groups, all options, all identities at the start, every sequence of later calls", "why_tests_cant": "all combinations of real, effective and saved identities, and every later sequence of system calls", "anchors": ["owamp/owamp/owampd/owampd.c:main"]}
{"id": "C82", "title": "Never two servers at once", "statement": "Of the servers started with the same directory for the process file at most one serves at any moment, and while one serves that file has its process number, whenever servers are started and whenever they exit or are killed.", "quantifier": "every number of servers, every interleaving of their steps, every moment at which they die", "why_tests_cant": "all interleavings of several processes with each other and with crashes", "anchors": ["owamp/owamp/owampd/owampd.c:main"]}
{"id": "C83", "title": "A server that is told to end ends", "statement": "When a server gets a signal to end, it accepts no more connections, tells its children to end, and is gone as soon as they have all ended, or at the latest when the time given with dieby is over, when it kills those that are left.", "quantifier": "every moment at which signals to end, the alarm and ends of children come, every number of children", "why_tests_cant": "signals can come between any two steps of the server", "anchors": ["owamp/owamp/owampd/owampd.c:main", "owamp/owamp/owampd/owampd.c:signal_catch", "owamp/owamp/owampd/owampd.c:ReapChildren", "owamp/owamp/owampd/owampd.c:ClosePipes"]}
{"id": "C84", "title": "The report for programs tells what was found", "statement": "Whoever reads the machine-readable report of a session line by line finds, each once, the true numbers of packets sent, lost and duplicated, the true times, delays, median, delay variation, synchronisation and traffic class, and tables with exactly one row for every delay bucket, every TTL value and every extent of reordering that occurred, with the true counts.", "quantifier": "every session, every range of packets, every file of records, and every earlier use of the object that summarises", "why_tests_cant": "all contents of session files and every order of arrivals, and the text that comes out of them", "anchors": ["owamp/owamp/owamp/stats.c:OWPStatsPrintMachine", "owamp/owamp/owamp/stats.c:PrintTtlStatsMachine", "owamp/owamp/owamp/stats.c:PrintMinMaxTtlMachine", "owamp/owamp/owamp/stats.c:BucketBufferPrint", "owamp/owamp/owamp/stats.c:CalculateJitter"]}
{"id": "C85", "title": "The summary for people tells what was found", "statement": "The summary that is printed for a session says, line by line, between which hosts and for which session, when the first and the last packet were due to the nearest millisecond, the true numbers of packets sent, lost and duplicated, the least, median and greatest delay and its variation in the unit that it names (or that there is none), the percentiles asked for, the hops that the TTL values mean and the share of arrivals for every extent of reordering.", "quantifier": "every session, every range of packets, every file of records, every list of percentiles and every unit", "why_tests_cant": "all contents of session files and every order of arrivals, all times, and the text that comes out of them", "anchors": ["owamp/owamp/owamp/stats.c:OWPStatsPrintSummary", "owamp/owamp/owamp/stats.c:PrintDelayStats", "owamp/owamp/owamp/stats.c:PrintTtlStats", "owamp/owamp/owamp/stats.c:OWPStatsScaleFactor", "owamp/owamp/owamp/stats.c:CalculateJitter"]}
{"id": "C86", "title": "A server runs with what its file and its command line say", "statement": "A server starts if and only if every line of its configuration file has a known key with a value that is allowed for it, the file can be opened if its directory was given, and the command line holds nothing but known options with allowed values. It then runs with, for each setting, the value of the last option for it, otherwise the value of the last line of the file with its key in any case, otherwise the documented default, and exactly as written: numbers are not changed, ranges of ports are used from their first to their last port with 0 meaning that the system chooses, and exactly the authentication modes are offered whose letters were given.", "quantifier": "every configuration file with any number of lines in any order, every command line and both daemons", "why_tests_cant": "all orders and repetitions of keys and options, all spellings and values, and the interplay of file and command line", "anchors": ["owamp/owamp/owampd/owampd.c:LoadConfig", "owamp/owamp/owampd/owampd.c:main", "owamp/owamp/owampd/owampd.c:usage"]}
{"id": "C87", "title": "A client connects to the first address that works, from where it was told", "statement": "A client that is given the name of a server connects to the first of the server's addresses that works, those of IP version 6 before those of version 4, leaving out a version the user excluded, and fails if and only if none works. The connection goes over the interface and comes from the local address, or from an address of the named interface, that the user asked for. No other address is contacted, no attempt leaves a socket open, and a failed opening leaves the server's record as it was.", "quantifier": "every list of addresses, every answer of the system to each call for each of them, every choice of version, local address and interface", "why_tests_cant": "all combinations of addresses and failures of system calls, and the resources left behind after each", "anchors": ["owamp/owamp/owamp/capi.c:_OWPClientConnect", "owamp/owamp/owamp/capi.c:TryAddr", "owamp/owamp/owamp/capi.c:_OWPClientBind", "owamp/owamp/owamp/capi.c:_OWPIsInterface", "owamp/owamp/owamp/api.c:OWPSocketInterfaceBind"]}
{"id": "C88", "title": "A server listens on the first of its addresses that is free", "statement": "A server that is started with the name of an address listens on the first of the addresses of that name that can be bound, those of IP version 6 before those of version 4, and fails if and only if none can be bound or it may not listen. A failure leaves no socket open.", "quantifier": "every list of addresses and every answer of the system to each call for each of them", "why_tests_cant": "all combinations of addresses and failures of system calls", "anchors": ["owamp/owamp/owamp/sapi.c:OpenSocket", "owamp/owamp/owamp/sapi.c:OWPServerSockCreateCommon"]}
{"id": "C89", "title": "Identities and pass-phrases are those of the files", "statement": "A server starts if and only if its file of pass-phrases, if there is one, is in order and names no user twice. It lets in, in a mode other than open, only users of this file, and only with a token made with their pass-phrase. A client keeps the identity it was given if and only if it has a pass-phrase for it, which is that of its file or the one that was typed, uses only the modes it was told to, and without being told all of them with an identity and only the open mode without. If both files agree about a user, a connection that both ends have is in the same mode and with the same keys on both.", "quantifier": "every file of pass-phrases of either side, every identity, every choice of modes, every program and every exchange of messages of the set-up", "why_tests_cant": "all files and identities, and all messages that could come in during the set-up", "anchors": ["owamp/owamp/owampd/policy.c:parsepfs", "owamp/owamp/owampd/policy.c:OWPDGetPF", "owamp/owamp/owping/owping.c:owp_set_auth", "owamp/owamp/owping/owping.c:getclientpf", "owamp/owamp/powstream/powstream.c:owp_set_auth", "owamp/owamp/owamp/context.c:_OWPCallGetPF"]}
{"id": "C90", "title": "Reports in parts cover the session", "statement": "With -N, owping, owstats and owfetch report a session in parts of that many packets: every packet is in exactly one part, no part is empty, only the last is smaller, the parts are reported in order, and each report says the same as one made of these packets from the whole file; without -N there is one report, of the whole session. With files asked for, a success leaves exactly the reports, each under the times of its summary, and no name is printed but of a report that has it. Showing only some records (-v with a number) does not change the summary.", "quantifier": "every number of packets and of packets per part, every file that a receiver can write, every success and failure of fopen and link", "why_tests_cant": "all numbers up to 2^32, unbounded files, every point of failure", "anchors": ["owamp/owamp/owping/owping.c:do_stats", "owamp/owamp/owamp/stats.c:OWPStatsParse"]}
{"id": "C91", "title": "What the exit status and the output of the ping programs say", "statement": "owping and twping start exactly the sessions that the options ask for, after all of them were accepted, and once. The exit status is 0 only if the sessions were accepted, started and ended with the agreement of the server, 2 only after a signal, otherwise 1. Nothing is reported of a test that did not end well; with status 0 exactly the sessions asked for are reported, unless the user wants to see none, each under the right hosts, and files for results are made, filled and kept as the options say; a test that fails leaves no file. owstats has status 0 only if every file was reported; owfetch asks for every session and keeps the files of those that have records.", "quantifier": "every combination of options, every answer of the library, every number of signals at every point, all lists of files and sessions", "why_tests_cant": "all combinations of answers and moments of signals, lists of any length", "anchors": ["owamp/owamp/owping/owping.c:main", "owamp/owamp/owping/owping.c:owp_fetch_sid", "owamp/owamp/owping/owping.c:FailSession"]}
{"id": "C92", "title": "An end point knows its packets apart, in bounded memory", "statement": "However many packets a receiver or a two-way client waits for, in whatever order they are looked up, noted as sent or received and given up, it finds for each packet the scheduled time and the notes of that very packet, and nothing for a packet that was given up. Memory grows only when more packets are waited for at one time than there is room for, is used again, and is all given back, once. A session for which memory is refused ends with an error.", "quantifier": "every history of look-ups, changes and removals, every schedule, every number of packets, every refusal of memory", "why_tests_cant": "unbounded histories over linked cells that are used again, 16-bit hash values that coincide", "anchors": ["owamp/owamp/owamp/endpoint.c:alloc_node", "owamp/owamp/owamp/endpoint.c:free_node", "owamp/owamp/owamp/endpoint.c:get_node", "owamp/owamp/owamp/endpoint.c:LostFree", "owamp/owamp/owamp/endpoint.c:flush_lost"]}
{"id": "C93", "title": "Reported delays are exact to half a microsecond and a bucket", "statement": "For time stamps from 1968 to 2036, the delay computed for a packet differs by at most 2^-21 s from the difference of its time stamps, never has the wrong sign and keeps the order of arrivals; the round-trip time of a two-way test is within 2^-20 s. The least and greatest delay reported are as exact. A percentile reported differs from the exact percentile of the packets that were received by at most that and the width of a bucket, whatever rounding does to the quotients, and none is reported exactly if there is none. The numbers of the buckets and their differences are representable for all delays.", "quantifier": "every session file, every set of time stamps, every bucket width, every percentile, every rounding that keeps order and whole numbers", "why_tests_cant": "all pairs of 64-bit time stamps and all sessions; rounding errors add up along the computation; overflow shows only for clocks that are days apart", "anchors": ["owamp/owamp/owamp/capi.c:OWPDelay", "owamp/owamp/owamp/arithm64.c:OWPNum64ToDouble", "owamp/owamp/owamp/stats.c:BucketIncrementDelay", "owamp/owamp/owamp/stats.c:BucketBufferSortCmp", "owamp/owamp/owamp/stats.c:BucketBufferSortPercentile"]}
{"id": "C94", "title": "Raw output has a line for every record of a file", "statement": "Printing a session file in raw form gives one line for each record that a reader of the file is given, in the order of the file, with the packet number, both times in full (twenty digits), whether each clock was synchronised, the errors and the TTL; from a line nothing else can be read, and lost packets are known by twenty zeros. If the program reports success, all records the file holds were printed.", "quantifier": "every file, damaged or not; every record; every session that is recorded, one-way and two-way", "why_tests_cant": "all files and all records; agreement of two readers of the same bytes", "anchors": ["owamp/owamp/owping/owping.c:printraw", "owamp/owamp/owping/owping.c:printrawTW", "owamp/owamp/owping/owping.c:do_stats", "owamp/owamp/owamp/api.c:OWPParseRecords"]}
{"id": "C95", "title": "The lines about single packets agree with the file and the summary", "statement": "When a summary is made with a line per packet, the summary is the same as without. There is exactly one line for each record the summary is about (numbers in its range, not in a skip range), in the order of the file, which names the packet and says that it was lost or its delay and, for synchronised clocks, the error; with UNIX times, the times. If the summary fails, the lines are those of a first part of the records. The same for two-way sessions, with the delays there, back, of the round trip and at the reflector.", "quantifier": "every session, every list of records, every range, every text of numbers, with and without UNIX times", "why_tests_cant": "all lists of records and ranges; refusal in the middle", "anchors": ["owamp/owamp/owamp/stats.c:IterateSummarizeSession", "owamp/owamp/owamp/stats.c:IterateSummarizeTWSession", "owamp/owamp/owamp/stats.c:OWPStatsParse"]}
{"id": "C96", "title": "Closing a connection or a context ends all sessions, each once", "statement": "Whatever was done with a context before - connections made and closed, sessions asked for, refused, stopped and ended, stop messages read or given up - every next operation and the freeing of the context ends and uses no memory that was given back. Closing a connection ends each of its sessions and no other: a process still running is told to end and waited for, its file is closed, the policy is told, in this order. When the context has been freed, nothing that belonged to it is allocated, and each session ever asked for was reported to the policy once if the policy attached something to it, and its file closed once if it had one.", "quantifier": "every history of operations on a context, of any length, every choice of addresses by the allocator, every state of the processes, every combination of hooks", "why_tests_cant": "all interleavings of operations on linked lists that are relinked in place; a stale pointer or a lost session shows only for certain orders and positions in the list", "anchors": ["owamp/owamp/owamp/context.c:OWPControlClose", "owamp/owamp/owamp/context.c:OWPContextFree", "owamp/owamp/owamp/context.c:_OWPControlAlloc", "owamp/owamp/owamp/context.c:_OWPCallTestComplete", "owamp/owamp/owamp/context.c:_OWPCallCloseFile", "owamp/owamp/owamp/api.c:_OWPTestSessionFree", "owamp/owamp/owamp/endpoint.c:_OWPEndpointFree", "owamp/owamp/owamp/protocol.c:_OWPReadStopSessions"]}
{"id": "C97", "title": "The report of a one-way session tells the truth about its packets", "statement": "When a one-way session runs undisturbed from end to end, the report of its results counts as sent exactly the packets that the sender handed to the network, as lost exactly those of them of which no copy came to the receiver in time, and as duplicates the further copies that came in time; and the report can always be made. Its least and greatest delay, the numbers of packets per delay, and how many packets came late in order are those of these copies. The file of results that programs read and the summary that people read say the same. Undisturbed: both ends have the same session, no signal stops them, they come to their ends, the receiver's clock does not go back, all is between 1970 and 2036, no packet is sent in the last 10 ns of its window, and what comes from the sender's address is what it sent. In time: no more than the timeout after the packet's scheduled time and no more than the timeout away from the time it was sent.", "quantifier": "every schedule, session length, timeout, mode and key, every behaviour of the sender's clock and of the kernel's buffers, every way the network loses, repeats, delays and reorders packets, every datagram of strangers, every moment the receiver wakes up", "why_tests_cant": "joins three programs over all interleavings of sending, loss, duplication, delay and wake-ups; a packet counted wrongly for one order of arrivals at a boundary shows only in that order", "anchors": ["owamp/owamp/owamp/endpoint.c:run_sender", "owamp/owamp/owamp/endpoint.c:run_receiver", "owamp/owamp/owamp/endpoint.c:flush_lost", "owamp/owamp/owamp/stats.c:OWPStatsParse", "owamp/owamp/owamp/stats.c:IterateSummarizeSession"]}
{"id": "C98", "title": "The report of a two-way session tells the truth about its packets and replies", "statement": "When a two-way session runs undisturbed from end to end, the client's records of replies are, in order, true accounts of the round trips that ended in time: the packet's number and when it was sent, when and with which TTL it came to the reflector, the reply's number and when it left, when and with which TTL it came back. A packet has one record of its loss exactly if it was handed to the network and no round trip of it ended in time. The report made from those records counts as sent the packets handed over, as lost those without a round trip in time, as duplicates of the two ways the further replies and the further copies of replies that came in time, and its least and greatest delays are those of these round trips. Undisturbed: both ends have the same session, no signal stops the client, its clock does not go back, no sending is interrupted, what is received has the expected size or comes with errno EINTR and comes while the client waits for it; datagrams between the two ends have the bytes that were sent. In time: back no more than the timeout after the packet was sent.", "quantifier": "every schedule, session length, timeout, mode and key, every way the network loses, repeats, delays and reorders packets and replies, every datagram of strangers to the reflector, every behaviour of the reflector's clock, signals and attempts to send, every order of wake-ups of the client", "why_tests_cant": "joins three programs over all interleavings of sending, reflection, loss, duplication, delay and wake-ups; a reply counted for the wrong packet, or dropped at a boundary, shows only for one order of events", "anchors": ["owamp/owamp/owamp/endpoint.c:run_tw_test", "owamp/owamp/owamp/endpoint.c:run_reflector", "owamp/owamp/owamp/endpoint.c:flush_lost", "owamp/owamp/owamp/stats.c:IterateSummarizeTWSession", "owamp/owamp/owamp/stats.c:OWPStatsParse"]}
{"id": "C99", "title": "A client speaks only when it is its turn", "statement": "Whatever a program calls on a connection, a client sends a request for a session, a request to start sessions or a request for results only while no sessions run, and a request to stop only while sessions run. Once an exchange broke off, because something could not be sent or an answer was cut short, not authentic or not understood, the client sends nothing any more and every call fails.", "quantifier": "every sequence of calls, everything the server sends, every failure of reading and writing, of endpoints, files and the program's own checks", "why_tests_cant": "one client call leaves the connection in a state that decides what the next one may do; all sequences of calls times all places where one can break off", "anchors": ["owamp/owamp/owamp/capi.c:OWPSessionRequest", "owamp/owamp/owamp/capi.c:OWPStartSessions", "owamp/owamp/owamp/capi.c:OWPFetchSession", "owamp/owamp/owamp/api.c:OWPStopSessions", "owamp/owamp/owamp/api.c:OWPStopSessionsWait", "owamp/owamp/owamp/protocol.c:_OWPWriteTestRequest", "owamp/owamp/owamp/protocol.c:_OWPWriteStartSessions"]}
{"id": "C100", "title": "An honest client and an honest server understand each other for as long as the connection lasts", "statement": "On a one-way control connection that works, a client and a server that follow the library's own sequence of calls go on understanding each other through any number of requests for sessions, rounds of sessions and fetches, in any order: sessions that both sides hold are started, and ended by the client, by the server or by both at once, every call succeeding and the server hearing exactly a start and a stop; a session that the server keeps is delivered; a refusal costs nothing. After each of these both sides have read all that the other wrote, hold the same keys and chaining values, and are ready for the next request.", "quantifier": "every connection as the set-up leaves it, all modes, every history of such requests, all sessions with all their gaps, every side that ends a round, all files, ranges and refusals", "why_tests_cant": "a single missing byte, state bit or block of the running digest shows only in a later request; all histories times all contents cannot be tried", "anchors": ["owamp/owamp/owamp/capi.c:OWPSessionRequest", "owamp/owamp/owamp/capi.c:OWPStartSessions", "owamp/owamp/owamp/capi.c:OWPFetchSession", "owamp/owamp/owamp/api.c:OWPStopSessions", "owamp/owamp/owamp/api.c:OWPStopSessionsWait", "owamp/owamp/owamp/sapi.c:OWPProcessTestRequest", "owamp/owamp/owamp/sapi.c:OWPProcessStartSessions", "owamp/owamp/owamp/sapi.c:OWPProcessFetchSession", "owamp/owamp/owamp/protocol.c:_OWPReadStopSessions", "owamp/owamp/owamp/protocol.c:_OWPWriteStopSessions"]}
{"id": "C101", "title": "The TTL in a record counts the routers a packet has passed", "statement": "An endpoint whose session is accepted sends its packets with a TTL (hop limit) of 255 and has asked the system for the TTL of what arrives, and its socket buffers hold a whole packet or it has asked for that. Every record of a packet that arrived then carries what the routers on the way left of 255, so that 255 less the TTL is their number: in the results of one-way sessions, in the replies of a reflector for the way out, in the results of two-way clients for the way back. If the system tells no TTL, or what it tells does not fit, 255 is recorded; a datagram that comes with other ancillary data is not taken.", "quantifier": "all answers of the system to the socket calls, both address families, both forms of report, all byte orders and word sizes, all sessions, all arrivals and numbers of routers", "why_tests_cant": "the reports of TTLs differ between systems and cannot be produced at will; the chain from the socket option to the record spans two hosts and a network", "anchors": ["owamp/owamp/owamp/endpoint.c:recvfromttl", "owamp/owamp/owamp/endpoint.c:_OWPEndpointInit", "owamp/owamp/owamp/endpoint.c:run_receiver", "owamp/owamp/owamp/endpoint.c:run_reflector", "owamp/owamp/owamp/endpoint.c:run_tw_test"]}
{"id": "C102", "title": "The report that programs read about a two-way session says what happened", "statement": "A program that reads the report of a two-way session as lines of a key and a value finds each key once, with the true figure: packets sent and given up, copies beyond the first on the way out and on the way back, the greatest errors, the least and greatest round-trip time, way out, way back and time at the reflector, medians and variations where there are any, the least and greatest TTL of both ways; and tables with one row for each bucket, and each TTL, that occurs, with the number of packets for each way. For a session that nobody disturbs these are the figures of the trips that packets and replies made over the network.", "quantifier": "all records, ranges of packets, settings, texts of floating point numbers and identities; all sessions and behaviours of the network", "why_tests_cant": "the reader of the text sees neither the records nor the network; a table with a row missing or counted for the other way looks like a right one", "anchors": ["owamp/owamp/owamp/stats.c:OWPStatsPrintMachine", "owamp/owamp/owamp/stats.c:BucketBufferPrintTW", "owamp/owamp/owamp/stats.c:OWPStatsParse"]}
{"id": "C103", "title": "The summary that people read about a two-way session says what happened", "statement": "The summary of a two-way session warns that delays of the single ways may be wrong exactly if a reply took a negative time on one of them. It names the ends and the session, the time of the first packet, the packets sent and lost with their share, the copies beyond the first on the way out and on the way back; the least, median and greatest of the round-trip time, the way out and the way back, each with its greatest error, and of the time at the reflector; the variations, or \"nan\" where too few packets were answered; the percentiles of the round trip that were asked for; and for each way how many routers the packets passed.", "quantifier": "all records, ranges of packets, settings, percentiles, texts of floating point numbers and identities", "why_tests_cant": "whoever reads the text sees neither the records nor the network; a figure of the wrong way, or of the wrong packets, looks like a right one", "anchors": ["owamp/owamp/owamp/stats.c:OWPStatsPrintSummary", "owamp/owamp/owamp/stats.c:PrintDelayStats", "owamp/owamp/owamp/stats.c:PrintJitterStats", "owamp/owamp/owamp/stats.c:PrintTtlStats", "owamp/owamp/owamp/stats.c:PrintStatsHeader"]}
{"id": "C104", "title": "A connection is served in the class that the limits file gives it, by its process and by the daemon alike", "statement": "The daemon accepts a connection only after its class is settled: in open mode that of the client's address, otherwise the class named like the user, or assigned to the user, or that of the address. The process that serves the connection and the daemon that grants resources then both have this class and keep it: every demand is made for it, whatever other connections do. If the class cannot be announced, confirmed or saved, the connection is refused and has no class, so that it can neither test nor fetch. A client served in open mode is in a class that allows open mode.", "quantifier": "all limits files, addresses, users, modes, set-up messages, failures and interruptions between process and daemon, and histories of other connections", "why_tests_cant": "the class is chosen in one process and charged in another, after a fork and over a socket that may fail or be interrupted at any byte; a class mixed up shows only as a limit applied to the wrong client", "anchors": ["owamp/owamp/owampd/policy.c:OWPDCheckControlPolicy", "owamp/owamp/owampd/policy.c:OWPDSendClass", "owamp/owamp/owampd/policy.c:OWPDReadClass", "owamp/owamp/owampd/policy.c:OWPDCheckTestPolicy", "owamp/owamp/owampd/policy.c:OWPDCheckFetchPolicy", "owamp/owamp/owampd/owampd.c:CheckFD", "owamp/owamp/owamp/sapi.c:OWPControlAcceptCommon"]}
{"id": "C105", "title": "A connection whose client falls silent, or that is told to end, comes to an end", "statement": "With a control timeout, whenever the process of a connection waits for its client the timer runs; when it expires the process takes up no further request and ends. A signal to end makes it end: it takes up at most one more request; an interrupt ends it at once even during a test, any other signal lets it trade the messages that stop the sessions. Neither the end of a test session nor anything but the client, the timer and a signal to end ends a connection. Its exit status is 0 if it was told to end or the client closed the connection, and 1 otherwise.", "quantifier": "all histories of requests, answers, waits, ended sessions, expired timers and signals, in every order, for one-way and two-way servers and every control timeout", "why_tests_cant": "signals come between any two instructions; the losing ones are a few instructions wide, and a process that waits for ever shows only as a connection that is never given back", "anchors": ["owamp/owamp/owampd/owampd.c:NewConnection", "owamp/owamp/owampd/owampd.c:signal_catch", "owamp/owamp/owamp/protocol.c:OWPReadRequestType", "owamp/owamp/owamp/api.c:OWPStopSessionsWait", "owamp/owamp/owamp/api.c:OWPStopSessions"]}
{"id": "C106", "title": "powstream measures what its command line says, and is alone in its directory", "statement": "When powstream starts to work, each option has the value of its last occurrence, or its default: packets of a session, packets of a summary (which divide the session with none left over), padding, pause, delay, loss threshold, mean wait, width of buckets, delay at the end, ports, addresses, interface, secrets, directory. It does not start with a value that is not what the option takes, with an option or a number of arguments it does not know, with both families demanded, or while another powstream works in the same directory; it then says so by its exit status. However powstreams begin, are interrupted and end, never do two work in one directory at a time.", "quantifier": "all command lines, with every option any number of times and in any order, every text as value; all histories of powstreams that begin and end and all interruptions of the call that locks", "why_tests_cant": "a test tries a few command lines; that an option is parsed and then never used shows in no output of a short run, and two powstreams in one directory spoil each other only when their sessions overlap", "anchors": ["owamp/owamp/powstream/powstream.c:main", "owamp/owamp/powstream/powstreamP.h:powapp_trec", "owamp/owamp/owamp/capi.c:OWPParsePortRange"]}
{"id": "C107", "title": "Every option of owping and twping holds, or the program does not start", "statement": "When owping or twping begins a test, each option has the value of its last occurrence, or its default: packets, padding, class, schedule, loss threshold, delays at the beginning and at the end, ports, modes, identity, addresses, directions, files for results, percentiles, unit, what is shown. Without a padding the packets of owping have none, and those of twping are as long as their answers. A value that is not what the option takes, an unknown option, both families or a wrong number of arguments make the program end, and its status says so.", "quantifier": "all command lines, with every option any number of times and in any order, every text as value, with and without a pass-phrase", "why_tests_cant": "options interact (-Q, -R, -M and -v; -t, -T, -f and -F; -A, -u and the size of packets), and a test of each option by itself misses that; the values of texts are unbounded", "anchors": ["owamp/owamp/owping/owping.c:main", "owamp/owamp/owping/owping.c:owp_set_auth", "owamp/owamp/owping/owping.c:parse_typeP", "owamp/owamp/owamp/api.c:OWPTestTWPayloadSize", "owamp/owamp/owamp/stats.c:OWPStatsScaleFactor"]}
{"id": "C108", "title": "A server starts only by the whole of its files of pass-phrases and limits", "statement": "A server that starts knows exactly the users of PREFIX.pfs in its configuration directory, none being there twice, and its classes and assignments are exactly those of PREFIX.limits; every user with a class has a pass-phrase. A file that is there and cannot be opened, read to its end or closed, or has a line out of order, keeps it from starting. A file that is not there counts as one without lines: without pass-phrases no user is known, and without limits every client may connect in open mode and is granted every amount. Each hook of the protocol is the function of the server made for it.", "quantifier": "all contents of the two files, every way in which opening, reading, closing or installing can fail, all names and directories, every client address, every demand", "why_tests_cant": "the failures of the file system come in any combination with any content, and what must hold concerns every user, client and demand afterwards", "anchors": ["owamp/owamp/owampd/policy.c:OWPDPolicyInstall", "owamp/owamp/owampd/policy.c:parsepfs", "owamp/owamp/owampd/policy.c:parselimits", "owamp/owamp/owampd/policy.c:parseassignline", "owamp/owamp/owampd/owampd.c:main"]}
{"id": "C109", "title": "The summary of what was fetched is the summary of what the server has", "statement": "When a part of a session, from one packet to another, is fetched from a server, the file the client gets can be summarised for these packets, and the summary (packets, losses, duplicates, reordering, delays and their percentiles, TTLs, error, beginning and end) is that of the same packets in the server's own file. Schedule, skip ranges, start and timeout in the client's file are those of the server's.", "quantifier": "all sessions and their records, finished or not, all parts, all skip ranges, both ends of a connection in any mode in any state in which a request may be made", "why_tests_cant": "it needs the agreement of the server's filter, the message format, the client's file and two readings of the statistics code, for all files", "anchors": ["owamp/owamp/owamp/sapi.c:OWPProcessFetchSession", "owamp/owamp/owamp/capi.c:OWPFetchSession", "owamp/owamp/owamp/stats.c:OWPStatsParse", "owamp/owamp/powstream/powstream.c:FetchSession"]}
{"id": "C110", "title": "Any number of fetches over one connection, each given its own records", "statement": "powstream keeps one control connection for its fetches. Whatever the fetches before were given (records, no records, a refusal, a connection that could not be opened or that broke, a signal), a fetch that the server answers is given that answer: for a part of a finished session exactly the records of that part, and their number. A session fetched part by part is all there, every record once. A fetch whose connection ends at any byte of the answer gives no records, never a part of them. A fetch that gives no records leaves no connection behind; every connection opened is closed again but the one held, and a connection is opened again only after a fetch that gave no records.", "quantifier": "all histories of fetches of any length, all failures among them, all sessions, all parts, connections in any mode", "why_tests_cant": "the cipher, digest and state of the connection carry over from each fetch to the next, over unboundedly many of them and with failures at any of them", "anchors": ["owamp/owamp/powstream/powstream.c:FetchSession", "owamp/owamp/owamp/capi.c:OWPFetchSession", "owamp/owamp/owamp/sapi.c:OWPProcessFetchSession"]}
{"id": "C111", "title": "Part of a control message is never taken for a message", "statement": "Whatever control message a client or server accepts (greeting, set-up response, server start, test request with any number of slots, accept-session, start-sessions, start-ack, stop-sessions about any number of sessions and skip ranges, fetch-session, fetch-ack, and the request at the head of a fetched session), it accepts nothing when the connection ends at an earlier byte of it, and a server carries out nothing of a request it got in part: over a connection that ends early it carries out the beginning of what it would have carried out. What a message says does not depend on what follows it, and what follows it is left for the next message.", "quantifier": "all messages that are accepted, of any length, in any mode and state, every byte at which the connection can end, and all bytes that can follow", "why_tests_cant": "a connection can end at any byte of messages of unbounded length, in every mode", "anchors": ["owamp/owamp/owamp/protocol.c:_OWPReadServerGreeting", "owamp/owamp/owamp/protocol.c:_OWPReadSetupResponse", "owamp/owamp/owamp/protocol.c:_OWPReadServerStart", "owamp/owamp/owamp/protocol.c:OWPReadRequestType", "owamp/owamp/owamp/protocol.c:_OWPReadTestRequest", "owamp/owamp/owamp/protocol.c:_OWPReadAcceptSession", "owamp/owamp/owamp/protocol.c:_OWPReadStartSessions", "owamp/owamp/owamp/protocol.c:_OWPReadStartAck", "owamp/owamp/owamp/protocol.c:_OWPReadStopSessions", "owamp/owamp/owamp/protocol.c:_OWPReadFetchSession", "owamp/owamp/owamp/protocol.c:_OWPReadFetchAck", "owamp/owamp/owampd/owampd.c:NewConnection"]}
