{"id": "C01", "title": "A terminated transaction stays silent", "statement": "Once a transaction has reported its termination (its state is one of the TERMINATED states), handing it any further event sends nothing, calls no application callback, and leaves the state unchanged; the event and its message are still released.", "quantifier": "every transaction type (ICT, NICT, IST, NIST), every transaction state, every event (messages and timer events), every sequence of later events", "why_tests_cant": "The set of event histories is infinite; a late retransmission arriving after termination can come in any order and number.", "anchors": ["src/osip2/osip_transaction.c:osip_transaction_execute", "src/osip2/fsm_misc.c:fsm_callmethod", "src/osip2/ict_fsm.c", "src/osip2/nict_fsm.c", "src/osip2/ist_fsm.c", "src/osip2/nist_fsm.c"]}
{"id": "C02", "title": "The kill callback fires exactly once, at termination", "statement": "Along any run of a transaction from its creation, the kill-transaction callback is invoked at most once, and it has been invoked exactly when the transaction is in a TERMINATED state.", "quantifier": "every history of events, send results and clock readings of each of the four transaction types", "why_tests_cant": "An application frees the transaction from the kill callback: a second call on any history is a double free. Only a proof covers every history.", "anchors": ["src/osip2/ict_fsm.c:ict_handle_transport_error", "src/osip2/nict_fsm.c", "src/osip2/ist_fsm.c", "src/osip2/nist_fsm.c", "src/osip2/osip.c:__osip_kill_transaction_callback"]}
{"id": "C03", "title": "State changes follow the RFC 3261 diagrams", "statement": "Each event moves a transaction only along an arrow of the corresponding RFC 3261 state diagram (figures 5-8): e.g. an INVITE client only goes CALLING->PROCEEDING/COMPLETED/TERMINATED, PROCEEDING->PROCEEDING/COMPLETED/TERMINATED, COMPLETED->COMPLETED/TERMINATED, and the stimulus on each arrow is the one RFC 3261 gives or a transport error.", "quantifier": "every transaction type, every state, every event, every result of the send callback and every clock reading", "why_tests_cant": "Reachable combinations of state, event, transport result and transport kind are many and a test can only sample them.", "anchors": ["src/osip2/ict_fsm.c:ict_transition", "src/osip2/nict_fsm.c:nict_transition", "src/osip2/ist_fsm.c:ist_transition", "src/osip2/nist_fsm.c:nist_transition"]}
{"id": "C04", "title": "Non-2xx final responses to INVITE are acknowledged, and reported once", "statement": "An INVITE client transaction reports a 3xx-6xx response to the application only after it has sent an ACK for it; the 3xx/4xx/5xx/6xx received callbacks together fire at most once per transaction; every later 3xx-6xx response in COMPLETED state causes exactly one resend of the same ACK and is only reported as a retransmission.", "quantifier": "every event history, every send result of an INVITE client transaction", "why_tests_cant": "Depends on order and number of responses, provisional and final, interleaved with timers and transport failures.", "anchors": ["src/osip2/ict_fsm.c:ict_rcv_3456xx", "src/osip2/ict_fsm.c:ict_retransmit_ack"]}
{"id": "C05", "title": "A 2xx ends the INVITE client transaction without an ACK", "statement": "In CALLING or PROCEEDING a 2xx response is passed to the application, terminates the transaction at once and makes the transaction send nothing (the ACK for 2xx belongs to the dialog); no INVITE client transaction ever sends an ACK after having reported a 2xx.", "quantifier": "every event history of an INVITE client transaction", "why_tests_cant": "Universal over histories; a test shows one history.", "anchors": ["src/osip2/ict_fsm.c:ict_rcv_2xx"]}
{"id": "C06", "title": "The INVITE is retransmitted only while no response has arrived", "statement": "After an INVITE client transaction has processed any response, it never sends the INVITE again.", "quantifier": "every event history, including timer-A events that were queued before the response was processed", "why_tests_cant": "A timer event may already be in the queue when the response is processed, so the schedule matters.", "anchors": ["src/osip2/ict_fsm.c:osip_ict_timeout_a_event", "src/osip2/ict_fsm.c:ict_transition", "src/osip2/ict.c:__osip_ict_need_timer_a_event"]}
{"id": "C07", "title": "Timer A doubles and is off on reliable transports", "statement": "Over an unreliable transport the n-th retransmission of an INVITE re-arms the retransmission timer to now + 2^n*T1; over TCP, TLS or SCTP, once a send has succeeded no retransmission timer is armed any more.", "quantifier": "every number n of retransmissions, every clock reading, every history", "why_tests_cant": "Induction over the unbounded number of retransmissions.", "anchors": ["src/osip2/ict.c:__osip_ict_init", "src/osip2/ict_fsm.c:ict_snd_invite", "src/osip2/ict_fsm.c:osip_ict_timeout_a_event"]}
{"id": "C08", "title": "Timer E follows min(2^n*T1, T2), is T2 once a 1xx arrived, and never fires after a final response", "statement": "Over an unreliable transport the n-th retransmission of a non-INVITE request in TRYING re-arms timer E to now + min(2^n*T1,T2); after a provisional response the interval is T2; after a final response the request is never sent again.", "quantifier": "every number of retransmissions, every history of a non-INVITE client transaction", "why_tests_cant": "Unbounded number of retransmissions interleaved with provisional responses.", "anchors": ["src/osip2/nict_fsm.c:osip_nict_timeout_e_event", "src/osip2/nict_fsm.c:nict_rcv_1xx", "src/osip2/nict.c:__osip_nict_init"]}
{"id": "C09", "title": "Every terminated client transaction told the application why", "statement": "When a client transaction is TERMINATED, the application has received a final-response callback, a timeout callback or a transport-error callback, and never both a final response and a timeout.", "quantifier": "every history of INVITE and non-INVITE client transactions", "why_tests_cant": "All interleavings of responses, timers and send failures.", "anchors": ["src/osip2/ict_fsm.c", "src/osip2/nict_fsm.c"]}
{"id": "C10", "title": "A retransmitted INVITE is not delivered twice", "statement": "An INVITE server transaction invokes the INVITE-received callback at most once; a retransmitted INVITE in PROCEEDING or COMPLETED is answered by resending the last response sent by the application, if there is one, and by nothing otherwise.", "quantifier": "every event history of an INVITE server transaction", "why_tests_cant": "Retransmissions may arrive any number of times at any moment.", "anchors": ["src/osip2/ist_fsm.c:ist_rcv_invite"]}
{"id": "C11", "title": "Timer G: response retransmission doubles up to T2 and stops on ACK", "statement": "Over an unreliable transport the n-th timer-G retransmission of a 3xx-6xx response re-arms the timer to now + min(2^n*T1,T2); after an ACK has been received the response is never sent again and timer I is running; over a reliable transport timer G is never armed.", "quantifier": "every number of retransmissions, every history of an INVITE server transaction", "why_tests_cant": "Unbounded retransmission count; timer events may be queued across the ACK.", "anchors": ["src/osip2/ist_fsm.c:osip_ist_timeout_g_event", "src/osip2/ist_fsm.c:ist_rcv_ack", "src/osip2/ist.c:__osip_ist_init"]}
{"id": "C12", "title": "A server transaction sends at most one final response of its own", "statement": "An INVITE server transaction accepts at most one final response from the application: once a 2xx was sent it is terminated, once a 3xx-6xx was sent every message it sends is that same response.", "quantifier": "every history of an INVITE server transaction", "why_tests_cant": "A second final response may be submitted at any time; universal over histories.", "anchors": ["src/osip2/ist_fsm.c:ist_snd_2xx", "src/osip2/ist_fsm.c:ist_snd_3456xx"]}
{"id": "C13", "title": "Non-INVITE server: at-most-once delivery and a stable final response", "statement": "A non-INVITE server transaction reports the request to the application at most once as new; once a final response was sent, every retransmitted request received before timer J fires is answered with exactly that response, and no other response is ever sent.", "quantifier": "every history of a non-INVITE server transaction", "why_tests_cant": "At-most-once execution is a statement about all histories of retransmissions.", "anchors": ["src/osip2/nist_fsm.c"]}
{"id": "C14", "title": "Message ownership: no use after free, no double free, no leak", "statement": "Every message handed to a transaction inside an event is freed at most once, is never passed to the send function or to a callback after it was freed, and after the transaction itself is freed every one of those messages, and the ACK the library built, has been freed exactly once.", "quantifier": "every history of events for each transaction type followed by freeing the transaction at any point, including with events still queued", "why_tests_cant": "Lifetime errors depend on the whole history; sanitizers only see executed histories.", "anchors": ["src/osip2/osip_transaction.c:osip_transaction_free2", "src/osip2/osip_transaction.c:osip_transaction_execute", "src/osip2/ict_fsm.c", "src/osip2/ist_fsm.c", "src/osip2/nict_fsm.c", "src/osip2/nist_fsm.c"]}
{"id": "C15", "title": "A failing send ends the transaction with one error report", "statement": "Whenever the application's send function reports a failure to a transaction, the transport-error callback is called exactly once with that error, immediately followed by termination and the kill callback.", "quantifier": "every state, event and error value for all four transaction types", "why_tests_cant": "Needs all (state, event) pairs that send.", "anchors": ["src/osip2/ict_fsm.c:ict_handle_transport_error", "src/osip2/nict_fsm.c:nict_handle_transport_error", "src/osip2/ist_fsm.c:ist_handle_transport_error", "src/osip2/nist_fsm.c:nist_handle_transport_error"]}
{"id": "C16", "title": "Transactions terminate", "statement": "If the clock passes every armed timer and the timers are run, a transaction that receives no further message makes progress to TERMINATED: from every non-initial state that waits on the network some armed timer leads to termination.", "quantifier": "every reachable state of a client transaction and of a server transaction that sent a final response", "why_tests_cant": "Liveness over all reachable states.", "anchors": ["src/osip2/osip.c:osip_timers_ict_execute", "src/osip2/osip.c:osip_timers_nict_execute", "src/osip2/osip.c:osip_timers_ist_execute", "src/osip2/osip.c:osip_timers_nist_execute"]}
{"id": "C17", "title": "Transaction ids are unique and removal is exact", "statement": "Two transactions alive in one stack never have the same id; removing a transaction removes exactly that one, keeps the relative order of the others and reports an error, changing nothing, if it is absent.", "quantifier": "every history of creating and removing transactions", "why_tests_cant": "Universal over histories of creations and removals.", "anchors": ["src/osip2/osip_transaction.c:osip_transaction_init", "src/osip2/osip.c:osip_remove_transaction", "src/osip2/osip.c:__osip_remove_ict_transaction"]}
{"id": "C18", "title": "Response matching is RFC 3261 17.1.3", "statement": "A response matches a client transaction exactly when the branch of its top Via equals the branch of the transaction's top Via and its CSeq method equals that of the request.", "quantifier": "every client transaction and every response", "why_tests_cant": "All pairs of branch and method strings.", "anchors": ["src/osip2/osip_transaction.c:__osip_transaction_matching_response_osip_to_xict_17_1_3"]}
{"id": "C19", "title": "Request matching is RFC 3261 17.2.3 for magic-cookie branches", "statement": "When the branches of both top Vias start with z9hG4bK, a request matches a server transaction exactly when branch, sent-by host and sent-by port (absent port meaning 5060) agree and the methods agree, or the request is an ACK and the transaction was created by an INVITE.", "quantifier": "every server transaction and every request with magic-cookie branches", "why_tests_cant": "All combinations of branches, hosts, ports, methods.", "anchors": ["src/osip2/osip_transaction.c:__osip_transaction_matching_request_osip_to_xist_17_2_3"]}
{"id": "C20", "title": "A retransmitted request is always matched to the transaction its first copy created", "statement": "After an incoming request created a server transaction, presenting the same request again finds that same transaction (or an older matching one) and never creates a second transaction.", "quantifier": "every set of live transactions and every request", "why_tests_cant": "All stack contents and all requests.", "anchors": ["src/osip2/osip.c:osip_find_transaction_and_add_event", "src/osip2/osip.c:osip_transaction_find", "src/osip2/osip.c:osip_create_transaction"]}
{"id": "C21", "title": "An ACK never creates a transaction", "statement": "osip_create_transaction returns no transaction for an ACK event, incoming or outgoing, nor for responses, nor for a request whose CSeq method differs from the request line.", "quantifier": "every event and every stack state", "why_tests_cant": "All inputs.", "anchors": ["src/osip2/osip.c:osip_create_transaction"]}
{"id": "C22", "title": "Events are dispatched to the right kind of transaction", "statement": "An event found to belong to a transaction is only ever queued on a transaction of the kind required: incoming INVITE/ACK requests to INVITE server, other incoming requests to non-INVITE server, incoming responses to the client kind given by the CSeq method.", "quantifier": "every event and every stack state", "why_tests_cant": "All combinations of lists and messages.", "anchors": ["src/osip2/osip.c:__osip_find_transaction", "src/osip2/osip.c:osip_find_transaction_and_add_event"]}
{"id": "C23", "title": "The ACK for a non-2xx response is RFC 3261 17.1.1.3", "statement": "The ACK built by the client transaction has the Request-URI, top Via (and only that Via), From-equivalent headers, Call-ID, CSeq number and Route headers of the INVITE, the To of the response, method ACK and CSeq method ACK.", "quantifier": "every INVITE and every 3xx-6xx response", "why_tests_cant": "All header contents.", "anchors": ["src/osip2/ict_fsm.c:ict_create_ack"]}
{"id": "C24", "title": "Queue order and losslessness under every schedule", "statement": "With any number of threads adding to and reading from an event queue, the elements read are exactly, in order, a prefix of the elements added; nothing is lost, duplicated or reordered, and a blocking reader that passed its semaphore always finds an element.", "quantifier": "every interleaving of any number of add, get and tryget calls of any number of threads", "why_tests_cant": "Schedules are unbounded; races do not reproduce.", "anchors": ["src/osip2/port_fifo.c:osip_fifo_add", "src/osip2/port_fifo.c:osip_fifo_get", "src/osip2/port_fifo.c:osip_fifo_tryget"]}
{"id": "C25", "title": "A list behaves as a sequence", "statement": "osip_list add/get/remove/size/eol on a linked list have exactly the effect of insert/index/erase/length on a sequence, for every position argument, without following a null pointer.", "quantifier": "every list content, every position (including negative and beyond the end), every allocation result", "why_tests_cant": "Unbounded list contents and integer positions.", "anchors": ["src/osipparser2/osip_list.c:osip_list_add", "src/osipparser2/osip_list.c:osip_list_get", "src/osipparser2/osip_list.c:osip_list_remove"]}
{"id": "C26", "title": "Iterating visits each element once, also while removing", "statement": "Iterating with get_first/get_next visits the elements in order, each exactly once; removing the current element through the iterator leaves exactly the other elements, continues with the next one and keeps the element count right.", "quantifier": "every list and every choice of which elements are removed during the iteration", "why_tests_cant": "Exponentially many removal patterns, unbounded lists.", "anchors": ["src/osipparser2/osip_list.c:osip_list_get_first", "src/osipparser2/osip_list.c:osip_list_get_next", "src/osipparser2/osip_list.c:osip_list_iterator_remove"]}
{"id": "C27", "title": "Adding milliseconds to a time stamp is exact", "statement": "add_gettimeofday advances a normalised time stamp by exactly the given number of milliseconds and leaves it normalised.", "quantifier": "every normalised time stamp and every non-negative delay", "why_tests_cant": "Arithmetic boundaries (carries, large delays) are easily missed by samples.", "anchors": ["src/osip2/osip_time.c:add_gettimeofday"]}
{"id": "C28", "title": "The suggested sleep never overshoots a timer", "statement": "osip_timers_gettimeout returns a normalised non-negative duration; sleeping for it never passes the earliest armed timer; it is zero if some timer has already expired or an event waits.", "quantifier": "every set of transactions, timers and clock readings", "why_tests_cant": "All combinations of timers; off-by-one in microsecond arithmetic.", "anchors": ["src/osip2/osip.c:osip_timers_gettimeout", "src/osip2/osip_time.c:min_timercmp"]}
{"id": "C29", "title": "A timer fires only in its state, after its deadline", "statement": "A timer event is produced exactly when the transaction is in a state for which RFC 3261 defines that timer, the timer was started, and the current time is strictly after its deadline.", "quantifier": "every transaction state, deadline and clock reading", "why_tests_cant": "All states and clock values.", "anchors": ["src/osip2/osip_transaction.c:__osip_transaction_need_timer_x_event", "src/osip2/ict.c", "src/osip2/nict.c", "src/osip2/ist.c", "src/osip2/nist.c"]}
{"id": "C30", "title": "2xx retransmission: bounded, spaced and stopped by the right ACK", "statement": "A 2xx kept for retransmission is sent at most 10 times, with gaps doubling from T1 up to T2; an ACK removes only the entry of its own dialog with its own CSeq; removing a dialog removes all its entries and no other.", "quantifier": "every set of retained 2xx and every sequence of clock readings and ACKs", "why_tests_cant": "All schedules of execution and ACK arrival.", "anchors": ["src/osip2/osip.c:osip_retransmissions_execute", "src/osip2/osip.c:osip_stop_200ok_retransmissions", "src/osip2/osip.c:osip_stop_retransmissions_from_dialog", "src/osip2/osip.c:ixt_retransmit"]}
{"id": "C31", "title": "Responses go where RFC 3261 18.2.2 / RFC 3581 say", "statement": "The destination computed for a response is the maddr parameter of the top Via, else its received parameter, else its host; the port is the value of rport, else the Via port, else 5060; and the server transaction uses the same choice.", "quantifier": "every response and every top Via", "why_tests_cant": "All combinations of presence and content of the parameters.", "anchors": ["src/osip2/osip.c:osip_response_get_destination", "src/osip2/osip_transaction.c:__osip_transaction_snd_xxx"]}
{"id": "C32", "title": "Requests go to the loose route or the Request-URI", "statement": "The destination chosen for a new client transaction is the first Route URI if it has the lr parameter, else the Request-URI's maddr, else the outbound pair, else its host, port defaulting to 5060.", "quantifier": "every request", "why_tests_cant": "All combinations of routes and parameters.", "anchors": ["src/osip2/ict.c:__osip_ict_init", "src/osip2/nict.c:__osip_nict_init"]}
{"id": "C33", "title": "Dialog route sets", "statement": "The route set of a dialog created by the caller is the Record-Route list of the response reversed; the callee's is that of the request in order; a caller's route set changes only while the dialog is early.", "quantifier": "every response/request and every later sequence of updates", "why_tests_cant": "Unbounded header lists and update histories.", "anchors": ["src/osip2/osip_dialog.c:osip_dialog_init_as_uac", "src/osip2/osip_dialog.c:osip_dialog_init_as_uas", "src/osip2/osip_dialog.c:osip_dialog_update_route_set_as_uac"]}
{"id": "C34", "title": "The remote tag of a dialog never changes once set", "statement": "Updating the remote tag succeeds only if none is set; after that no update alters it.", "quantifier": "every dialog and every sequence of updates", "why_tests_cant": "All update histories.", "anchors": ["src/osip2/osip_dialog.c:osip_dialog_update_tag_as_uac"]}
{"id": "C35", "title": "A request matches the callee's dialog only if it carries the dialog's identifiers", "statement": "If osip_dialog_match_as_uas accepts a request for a dialog having both tags, then Call-ID, From tag and To tag of the request equal the dialog's Call-ID, remote tag and local tag (RFC 3261 12.2.2).", "quantifier": "every dialog and request", "why_tests_cant": "All combinations of identifiers.", "anchors": ["src/osip2/osip_dialog.c:osip_dialog_match_as_uas"]}
{"id": "C36", "title": "A response matches the caller's dialog by Call-ID and both tags", "statement": "osip_dialog_match_as_uac accepts a response with To tag for a dialog with a remote tag exactly when Call-ID, From tag and To tag equal the dialog's.", "quantifier": "every dialog and response", "why_tests_cant": "All combinations of identifiers.", "anchors": ["src/osip2/osip_dialog.c:osip_dialog_match_as_uac"]}
{"id": "C37", "title": "URI component escaping is reversible", "statement": "Unescaping an escaped user, password, parameter or header component gives back the original string, and the escaped form contains only characters allowed in that component or %XX triplets.", "quantifier": "every byte string without NUL, each of the four component kinds", "why_tests_cant": "256^n strings.", "anchors": ["src/osipparser2/osip_uri.c:__osip_uri_escape_nonascii_and_nondef", "src/osipparser2/osip_uri.c:__osip_uri_unescape"]}
{"id": "C38", "title": "Unescaping is in bounds and never grows the string", "statement": "Unescaping terminates, reads and writes only inside the string and its terminator, and the result is no longer than the input, also for malformed % sequences.", "quantifier": "every NUL-terminated byte string", "why_tests_cant": "Malformed input space is unbounded.", "anchors": ["src/osipparser2/osip_uri.c:__osip_uri_unescape"]}
{"id": "C39", "title": "Trimming is in bounds and removes exactly the outer blanks", "statement": "osip_clrspace leaves in the buffer exactly the input without leading and trailing space, tab, CR, LF, and touches only the string and its terminator.", "quantifier": "every NUL-terminated string", "why_tests_cant": "Boundary conditions at both ends for every string.", "anchors": ["src/osipparser2/osip_port.c:osip_clrspace"]}
{"id": "C40", "title": "Bounded trimmed copy fits its destination", "statement": "osip_clrncpy writes at most len+1 bytes, NUL-terminates, and the copy is the first len bytes of the source without outer blanks.", "quantifier": "every NUL-terminated source and every len up to its length", "why_tests_cant": "All lengths and contents.", "anchors": ["src/osipparser2/osip_port.c:osip_clrncpy"]}
{"id": "C41", "title": "The quote finder finds the first unescaped quote", "statement": "__osip_quote_find returns the first double quote preceded by an even number of backslashes, or nothing if there is none, without reading before the start or past the end of the string.", "quantifier": "every string", "why_tests_cant": "Arbitrary runs of backslashes at arbitrary positions.", "anchors": ["src/osipparser2/osip_port.c:__osip_quote_find"]}
{"id": "C42", "title": "Quoting and unquoting strings round-trips", "statement": "osip_dequote after osip_enquote gives back the original string when it has no CR or LF; the quoted form fits the allocated buffer and has its closing quote as its first unescaped quote after the opening one.", "quantifier": "every string without CR/LF", "why_tests_cant": "All strings.", "anchors": ["src/osipparser2/osip_port.c:osip_enquote", "src/osipparser2/osip_port.c:osip_dequote"]}
{"id": "C43", "title": "Removing quotes stays inside the copy", "statement": "osip_strdup_without_quote only accesses memory of its argument and of its own copy.", "quantifier": "every string", "why_tests_cant": "Boundary: very short strings.", "anchors": ["src/osipparser2/osip_port.c:osip_strdup_without_quote"]}
{"id": "C44", "title": "Header-name lookup is exact", "statement": "After parser initialisation a lower-case header name is found, with its own parsing entry, exactly when it is one of the supported names; no two supported names share a hash slot.", "quantifier": "every string", "why_tests_cant": "All strings: a hash clash with an unknown header cannot be excluded by samples.", "anchors": ["src/osipparser2/osip_parser_cfg.c:parser_init", "src/osipparser2/osip_parser_cfg.c:__osip_message_is_known_header", "src/osipparser2/osip_port.c:osip_hash"]}
{"id": "C45", "title": "Line unfolding", "statement": "Before headers are parsed, continuation lines of the header part are joined: the unfolding pass is memory safe, keeps the length of the buffer, changes only line breaks and following white space into spaces, and never touches the body after the blank line.", "quantifier": "every NUL-terminated buffer", "why_tests_cant": "All placements of CR, LF, blanks.", "anchors": ["src/osipparser2/osip_message_parse.c:osip_util_replace_all_lws"]}
{"id": "C46", "title": "Comma-separated header values are split only at top-level commas", "statement": "A multi-valued header such as Contact or Via is split exactly at commas outside quoted strings (where backslash escapes a quote) and outside angle brackets.", "quantifier": "every header value", "why_tests_cant": "All nestings of quotes, escapes, brackets.", "anchors": ["src/osipparser2/osip_message_parse.c:osip_message_set_multiple_header"]}
{"id": "C47", "title": "Content-Length equals the body size", "statement": "A serialised message carries in its Content-Length header the decimal number of bytes of the body that follows the blank line.", "quantifier": "every message that serialises, of any body size", "why_tests_cant": "All body sizes; the boundary is at sizes no unit test uses.", "anchors": ["src/osipparser2/osip_message_to_str.c:_osip_message_to_str"]}
{"id": "C48", "title": "Start lines round-trip", "statement": "Parsing the serialised request line or status line gives back method, URI text, version, status code and reason.", "quantifier": "every well-formed start line", "why_tests_cant": "All strings.", "anchors": ["src/osipparser2/osip_message_parse.c:__osip_message_startline_parse", "src/osipparser2/osip_message_to_str.c:__osip_message_startline_to_str"]}
{"id": "C49", "title": "CSeq and Call-ID round-trip", "statement": "Parsing the string form of a CSeq or Call-ID whose parts contain no separator gives back the same parts.", "quantifier": "every CSeq/Call-ID with well-formed parts", "why_tests_cant": "All strings.", "anchors": ["src/osipparser2/osip_cseq.c", "src/osipparser2/osip_call_id.c"]}
{"id": "C50", "title": "Via round-trips", "statement": "Parsing the string form of a Via header with well-formed parts gives back version, protocol, host, port, parameters in order, and comment.", "quantifier": "every Via with well-formed parts and any number of parameters", "why_tests_cant": "Unbounded parameter lists and strings.", "anchors": ["src/osipparser2/osip_via.c:osip_via_parse", "src/osipparser2/osip_via.c:osip_via_to_str"]}
{"id": "C51", "title": "The Via parser stays in bounds", "statement": "osip_via_parse never reads outside its NUL-terminated argument.", "quantifier": "every NUL-terminated string", "why_tests_cant": "Malformed input space.", "anchors": ["src/osipparser2/osip_via.c:osip_via_parse"]}
{"id": "C52", "title": "SIP URIs round-trip", "statement": "Parsing the string form of a sip/sips URI with well-formed components gives back scheme, user, password, host, port, parameters and headers in order.", "quantifier": "every URI with well-formed components, arbitrary (non-NUL) bytes in user/password/parameter values", "why_tests_cant": "All strings, escaping included, unbounded lists.", "anchors": ["src/osipparser2/osip_uri.c:osip_uri_parse", "src/osipparser2/osip_uri.c:osip_uri_to_str"]}
{"id": "C53", "title": "From/To/Contact round-trip", "statement": "Parsing the string form of a From-like header gives back display name, URI and parameters.", "quantifier": "every well-formed From/To/Contact/Route value", "why_tests_cant": "All strings.", "anchors": ["src/osipparser2/osip_from.c:osip_from_parse", "src/osipparser2/osip_from.c:osip_from_to_str"]}
{"id": "C54", "title": "Multipart bodies are cut in bounds", "statement": "Splitting a multipart body never computes a negative part length.", "quantifier": "every body and boundary", "why_tests_cant": "Malformed bodies.", "anchors": ["src/osipparser2/osip_message_parse.c:msg_osip_body_parse"]}
{"id": "C55", "title": "Serialisation fails rather than emit a broken header", "statement": "If a header present in the message cannot be serialised, osip_message_to_str reports an error.", "quantifier": "every message", "why_tests_cant": "All combinations of header states.", "anchors": ["src/osipparser2/osip_message_to_str.c:_osip_message_to_str"]}
{"id": "C56", "title": "received/rport are filled in exactly when required", "statement": "On a request received from ip:port, the top Via gets received=ip iff its host differs from ip, and rport=port iff it carries an empty rport; nothing else is altered, and responses are untouched.", "quantifier": "every message, ip and port", "why_tests_cant": "All Via contents.", "anchors": ["src/osipparser2/osip_message_parse.c:osip_message_fix_last_via_header"]}
{"id": "C57", "title": "Case-insensitive comparison is comparison of lower-cased strings", "statement": "osip_strcasecmp returns 0 exactly for strings equal after ASCII lower-casing, so it is an equivalence; osip_strncasecmp does so for the first n characters.", "quantifier": "every pair of strings, every n", "why_tests_cant": "All pairs.", "anchors": ["src/osipparser2/osip_port.c:osip_strcasecmp", "src/osipparser2/osip_port.c:osip_strncasecmp"]}
{"id": "C58", "title": "MD5 does not depend on how the input is cut", "statement": "Feeding data to the digest in any sequence of pieces gives the same digest as feeding it at once.", "quantifier": "every byte string and every way to cut it", "why_tests_cant": "Unbounded cuts.", "anchors": ["src/osipparser2/osip_md5c.c:osip_MD5Update"]}
{"id": "C59", "title": "Set-up failure leaves no dangling context", "statement": "When creating a transaction fails, everything allocated for it is freed exactly once.", "quantifier": "every request, every failing step of the set-up", "why_tests_cant": "Error paths are rarely executed.", "anchors": ["src/osip2/osip_transaction.c:osip_transaction_init", "src/osip2/ict.c:__osip_ict_init"]}
{"id": "C60", "title": "A cloned message is an independent equal copy", "statement": "Serialising a clone gives the same bytes as serialising the original, for every message.", "quantifier": "every message, including ones with binary bodies", "why_tests_cant": "All messages.", "anchors": ["src/osipparser2/osip_message.c:osip_message_clone"]}
{"id": "C61", "title": "State machines never dereference NULL", "statement": "In any history of a transaction that was successfully created, no handler of the state machines dereferences a NULL message, request, response or method.", "quantifier": "every transaction type, every sequence of messages, timer events, kill events, executions, send results and clock readings", "why_tests_cant": "The sequences of events are unbounded; the pointers depend on the whole history.", "anchors": ["src/osip2/ict_fsm.c", "src/osip2/nict_fsm.c", "src/osip2/ist_fsm.c", "src/osip2/nist_fsm.c", "src/osip2/osip_transaction.c:osip_transaction_execute"]}
{"id": "C62", "title": "Dispatching a message never dereferences NULL", "statement": "Looking up the transaction of a message, queueing its event, creating or removing a transaction never dereferences a NULL pointer, whatever headers the message lacks.", "quantifier": "every history of a stack and every message", "why_tests_cant": "The set of missing headers and the stack contents are unbounded.", "anchors": ["src/osip2/osip.c:osip_find_transaction_and_add_event", "src/osip2/osip.c:osip_create_transaction", "src/osip2/osip_transaction.c:__osip_transaction_matching_request_osip_to_xist_17_2_3"]}
{"id": "C63", "title": "State of a new dialog", "statement": "A dialog created from an INVITE and its response has the Call-ID of the response, the tags of From and To as local and remote tag on the caller's side and the other way round on the callee's, the CSeq number as local (caller) or remote (callee) sequence number, and is early exactly if the response is provisional; the caller's dialog recognises the responses it was created from.", "quantifier": "every response and request", "why_tests_cant": "All combinations of headers and parameters.", "anchors": ["src/osip2/osip_dialog.c:osip_dialog_init_as_uac", "src/osip2/osip_dialog.c:osip_dialog_init_as_uas"]}
{"id": "C64", "title": "The type of a callback tells the truth about its message", "statement": "Every callback a transaction makes belongs to the kind of the transaction and announces what its message is: the method of a request sent or received, the class of a response (6xx for every response outside 1xx-5xx), and no message only for the timeout callbacks.", "quantifier": "every history of every transaction", "why_tests_cant": "The message handed over depends on the whole history of the transaction.", "anchors": ["src/osip2/ict_fsm.c", "src/osip2/nict_fsm.c", "src/osip2/ist_fsm.c", "src/osip2/nist_fsm.c"]}
{"id": "C65", "title": "Waiting periods after a final response", "statement": "When a transaction enters a state in which it waits for retransmissions or for an ACK, the timer which ends the wait is set to the RFC 3261 value: D 32 s, K and I T4, J 64*T1 on unreliable transports and zero on reliable ones; H 64*T1 always.", "quantifier": "every history of every transaction, every clock reading", "why_tests_cant": "The state is reached by unboundedly many histories.", "anchors": ["src/osip2/ict.c:__osip_ict_init", "src/osip2/nict.c:__osip_nict_init", "src/osip2/ist.c:__osip_ist_init", "src/osip2/nist.c:__osip_nist_init", "src/osip2/ict_fsm.c:ict_rcv_3456xx", "src/osip2/nict_fsm.c:nict_rcv_23456xx", "src/osip2/ist_fsm.c:ist_snd_3456xx", "src/osip2/nist_fsm.c:nist_snd_23456xx"]}
{"id": "C66", "title": "Cloning a list", "statement": "osip_list_clone appends to the destination list exactly the clones of the source's elements, in order, leaves the source and everything else as it was, and stops with the error of the clone function at the first element which cannot be cloned.", "quantifier": "every source and destination list, every clone function, every allocation result", "why_tests_cant": "Unbounded lists and all failing positions.", "anchors": ["src/osipparser2/osip_list.c:osip_list_clone"]}
{"id": "C67", "title": "Request matching for peers of RFC 2543", "statement": "When the branches of the top Vias are missing or not both those of RFC 3261, a request matches a server transaction exactly when Call-ID, CSeq number, method (ACK counting as INVITE), From tag and the text of the top Via agree, and the To tag agrees with that of the request executed by the transaction - for an ACK with that of the transaction, which may have had none.", "quantifier": "every server transaction and every request with To, From, Call-ID, CSeq and Via", "why_tests_cant": "All combinations of headers and tags.", "anchors": ["src/osip2/osip_transaction.c:__osip_transaction_matching_request_osip_to_xist_17_2_3"]}
{"id": "C68", "title": "Case-insensitive search finds the first occurrence", "statement": "osip_strcasestr returns the first position of the haystack at which the needle occurs when letters are compared without case, and NULL exactly if there is none; it reads neither string past its terminator.", "quantifier": "every pair of strings", "why_tests_cant": "All pairs of strings and overlaps.", "anchors": ["src/osipparser2/osip_port.c:osip_strcasestr"]}
{"id": "C69", "title": "Only headers that must be valid make a message fail", "statement": "When a header is stored, a supported header name (long or compact) is handed to its own parser and to no other, an unknown name to the list of other headers; the message is rejected exactly if the parser of Call-ID, Contact, Content-Length, Content-Type, CSeq, From, To or Via (or a compact form) fails.", "quantifier": "every header name, every outcome of the header parsers", "why_tests_cant": "All strings as names; the policy is spread over a 33-entry table filled by code.", "anchors": ["src/osipparser2/osip_message_parse.c:osip_message_set__header", "src/osipparser2/osip_parser_cfg.c:__osip_message_call_method", "src/osipparser2/osip_parser_cfg.c:parser_init"]}
{"id": "C70", "title": "Ends of lines and of the header part are found", "statement": "__osip_find_next_crlf gives the position behind the first line end (CRLF, CR or LF), reports a missing line end and a continued line; __osip_find_next_crlfcrlf gives the position behind the first empty line or reports that there is none; neither reads outside the string.", "quantifier": "every NUL-terminated string", "why_tests_cant": "All mixtures of line ends and continuation lines.", "anchors": ["src/osipparser2/osip_message_parse.c:__osip_find_next_crlf", "src/osipparser2/osip_message_parse.c:__osip_find_next_crlfcrlf"]}
{"id": "C71", "title": "Generic parameters round-trip", "statement": "__osip_generic_param_parseall applied to the text of a list of parameters (;name or ;name=value) gives back the same names and values in order, appended to the parameters already there, for values which are tokens, hosts or quoted strings; it reads nothing outside its argument for any non-empty string.", "quantifier": "every list of well-formed parameters; every non-empty string for the bounds", "why_tests_cant": "All lengths, quoted strings with escapes and separators inside.", "anchors": ["src/osipparser2/osip_from.c:__osip_generic_param_parseall"]}
{"id": "C72", "title": "URI parsing stays inside the string", "statement": "osip_uri_parse reads nothing outside the string it is given and its terminator, writes only into blocks it has allocated, ends, and its result does not depend on what is in memory behind the string.", "quantifier": "every NUL-terminated string, any bytes behind it", "why_tests_cant": "All strings; separators in every order.", "anchors": ["src/osipparser2/osip_uri.c:osip_uri_parse", "src/osipparser2/osip_uri.c:osip_uri_parse_headers", "src/osipparser2/osip_uri.c:osip_uri_parse_params"]}
{"id": "C73", "title": "From parsing stays inside the string", "statement": "osip_from_parse and osip_contact_parse read nothing outside the string they are given and its terminator, write only into blocks they have allocated, and end.", "quantifier": "every NUL-terminated string, any bytes behind it", "why_tests_cant": "All strings; quotes, brackets and separators in every order.", "anchors": ["src/osipparser2/osip_from.c:osip_from_parse", "src/osipparser2/osip_contact.c:osip_contact_parse"]}
{"id": "C74", "title": "Start lines are read inside the string and only well-formed ones are accepted", "statement": "__osip_message_startline_parse reads nothing outside the string; it fails with a syntax error, or the text is method SP URI SP version or version SP code SP reason and a line end, the message gets exactly these parts and the headers start behind the line end. A line is a status line exactly if it starts with SIP/.", "quantifier": "every NUL-terminated string, any bytes behind it", "why_tests_cant": "All strings.", "anchors": ["src/osipparser2/osip_message_parse.c:__osip_message_startline_parse", "src/osipparser2/osip_message_parse.c:__osip_message_startline_parsereq", "src/osipparser2/osip_message_parse.c:__osip_message_startline_parseresp"]}
{"id": "C75", "title": "Header lines are read exactly", "statement": "msg_headers_parse cuts the header part into lines at each line end, hands each name and trimmed value (or no value) to the message in order, stops at the empty line and hands over the rest as body; it reads nothing outside the string, and what it accepts is a sequence of header lines that the message accepted.", "quantifier": "every NUL-terminated string, every behaviour of the setter", "why_tests_cant": "All header parts.", "anchors": ["src/osipparser2/osip_message_parse.c:msg_headers_parse"]}
{"id": "C76", "title": "The digest is the MD5 digest of RFC 1321", "statement": "osip_MD5Init, osip_MD5Update and osip_MD5Final produce the digest RFC 1321 defines for the data, whatever the buffer held before.", "quantifier": "every sequence of pieces shorter than 2^32 - 63 bytes each", "why_tests_cant": "All byte strings; test vectors cover a few lengths only.", "anchors": ["src/osipparser2/osip_md5c.c:osip_MD5Init", "src/osipparser2/osip_md5c.c:osip_MD5Update", "src/osipparser2/osip_md5c.c:osip_MD5Final", "src/osipparser2/osip_md5c.c:osip_MD5Transform"]}
{"id": "C77", "title": "Content-Type and Accept round-trip", "statement": "A Content-Type or Accept header that has been read can be written, and the text reads back as the same type, subtype and parameters; reading stays inside the string.", "quantifier": "every type, subtype and parameter list; every NUL-terminated string for the bounds", "why_tests_cant": "All header texts, with and without parameters and values.", "anchors": ["src/osipparser2/osip_content_type.c:osip_content_type_parse", "src/osipparser2/osip_content_type.c:osip_content_type_to_str", "src/osipparser2/osip_accept.c:osip_accept_to_str"]}
{"id": "C78", "title": "Accept-Encoding and Call-Info round-trip", "statement": "Accept-Encoding, Accept-Language, Call-Info, Alert-Info and Error-Info headers written by their to_str function read back as the same element and parameters, also when the bracketed text of Call-Info has semicolons; reading stays inside the string.", "quantifier": "every element and list of well-formed parameters; every NUL-terminated string for the bounds", "why_tests_cant": "All element texts and parameter lists.", "anchors": ["src/osipparser2/osip_accept_encoding.c:osip_accept_encoding_parse", "src/osipparser2/osip_accept_encoding.c:osip_accept_encoding_to_str", "src/osipparser2/osip_call_info.c:osip_call_info_parse", "src/osipparser2/osip_call_info.c:osip_call_info_to_str"]}
{"id": "C79", "title": "Plain values and unknown headers are kept", "statement": "Content-Length, Allow, Content-Encoding and Mime-Version keep their text exactly; any other header is stored with the blanks around name and value removed and is written as Name: value with a capital first letter.", "quantifier": "every non-empty value; every name with a character that is not blank and every value, also none", "why_tests_cant": "All strings.", "anchors": ["src/osipparser2/osip_content_length.c:osip_content_length_parse", "src/osipparser2/osip_content_length.c:osip_content_length_to_str", "src/osipparser2/osip_header.c:osip_message_set_header", "src/osipparser2/osip_header.c:osip_header_to_str"]}
{"id": "C80", "title": "Credentials round-trip", "statement": "WWW-Authenticate, Authorization and Authentication-Info headers: for any list of directives, in any order and with any blanks, each field gets the value of the first directive with its name (letter case ignored) whose value is not empty. The text written by the to_str functions of WWW-Authenticate and Authorization never runs over its block and reads back as the same scheme and fields.", "quantifier": "every list of directives with quoted strings or tokens of at least 6 characters whose names do not extend the name of a token field; every set of field values", "why_tests_cant": "All orders, repetitions and values of the directives, with commas and escaped quotes inside the quoted strings.", "anchors": ["src/osipparser2/osip_www_authenticate.c:osip_www_authenticate_parse", "src/osipparser2/osip_www_authenticate.c:__osip_quoted_string_set", "src/osipparser2/osip_www_authenticate.c:__osip_token_set", "src/osipparser2/osip_www_authenticate.c:osip_www_authenticate_to_str", "src/osipparser2/osip_authorization.c:osip_authorization_parse", "src/osipparser2/osip_authorization.c:osip_authorization_to_str", "src/osipparser2/osip_authentication_info.c:osip_authentication_info_parse"]}
{"id": "C81", "title": "Authentication-Info is written inside its block", "statement": "osip_authentication_info_to_str writes only into the block it has allocated, and the text reads back as the same scheme and fields.", "quantifier": "every scheme and every set of field values", "why_tests_cant": "The overflow is one byte and needs two particular fields together; an allocator with rounding hides it.", "anchors": ["src/osipparser2/osip_authentication_info.c:osip_authentication_info_to_str"]}
{"id": "C82", "title": "Credential parsing stays inside the string", "statement": "osip_www_authenticate_parse, osip_authorization_parse and osip_authentication_info_parse read nothing outside the string they are given and its terminator, and end.", "quantifier": "every NUL-terminated string, any bytes behind it", "why_tests_cant": "All strings; the loops go backwards over blanks and jump to later quotes.", "anchors": ["src/osipparser2/osip_www_authenticate.c:osip_www_authenticate_parse", "src/osipparser2/osip_authorization.c:osip_authorization_parse", "src/osipparser2/osip_authentication_info.c:osip_authentication_info_parse"]}
{"id": "C83", "title": "Directives are not mixed up", "statement": "An Authorization reads the same with and without the directives no field knows, and no directive is stored in a field with another name or lost.", "quantifier": "every list of directives", "why_tests_cant": "All names of extension directives and all their positions.", "anchors": ["src/osipparser2/osip_www_authenticate.c:__osip_token_set", "src/osipparser2/osip_authorization.c:osip_authorization_parse"]}
{"id": "C84", "title": "Bodies are split exactly", "statement": "A body that is not multipart is the first Content-Length bytes behind the empty line and the message is rejected if there are fewer; a multipart body is split into exactly the parts between its boundaries, each with its headers, its content type and all its bytes.", "quantifier": "every body with CRLF line ends and less than 1000 zero bytes per part, every boundary, any text before and behind the parts", "why_tests_cant": "All byte sequences and part counts; zero bytes inside a part interrupt the string functions the search uses.", "anchors": ["src/osipparser2/osip_message_parse.c:msg_osip_body_parse", "src/osipparser2/osip_message_parse.c:__osip_find_next_occurence", "src/osipparser2/osip_body.c:osip_body_parse_mime"]}
{"id": "C85", "title": "Body parts survive a round trip", "statement": "osip_body_to_str never writes behind its buffer, and osip_body_parse_mime reads the text back into the same content type, headers (with a capital first letter) and bytes.", "quantifier": "every part with data and a content type or a header; header names do not begin with content-type", "why_tests_cant": "All lengths of headers and data: the buffer is grown by guesses.", "anchors": ["src/osipparser2/osip_body.c:osip_body_to_str", "src/osipparser2/osip_body.c:osip_body_parse_header", "src/osipparser2/osip_body.c:osip_body_parse_mime"]}
{"id": "C86", "title": "The text of a serialised message", "statement": "A message whose parts can be serialised is written as start line, known headers in a fixed order with one line per header, other headers in their order, Content-Length, a blank line and the bodies (between boundaries if multipart); the message then keeps this text and serialising it again returns the same bytes.", "quantifier": "every message not yet serialised whose start line, headers and bodies can be serialised", "why_tests_cant": "All numbers and lengths of headers and bodies: the buffer is grown piece by piece.", "anchors": ["src/osipparser2/osip_message_to_str.c:_osip_message_to_str", "src/osipparser2/osip_message_to_str.c:strcat_headers_one_per_line", "src/osipparser2/osip_message_to_str.c:strcat_simple_header"]}
{"id": "C87", "title": "Serialising a message stays in bounds", "statement": "Serialising never writes outside the block that holds the text, whether it succeeds or not.", "quantifier": "every message, also incomplete ones", "why_tests_cant": "All lengths of all headers and bodies, and missing pointers everywhere.", "anchors": ["src/osipparser2/osip_message_to_str.c:_osip_message_to_str", "src/osipparser2/osip_via.c:osip_via_to_str", "src/osipparser2/osip_uri.c:osip_uri_to_str", "src/osipparser2/osip_accept.c:osip_accept_to_str", "src/osipparser2/osip_body.c:osip_body_to_str"]}
{"id": "C88", "title": "Messages survive a round trip", "statement": "A message that is serialised and read again gives the same start line, headers and bodies; only Content-Length becomes the length of the body and header names of parts get a capital letter.", "quantifier": "every well-formed message with a body shorter than 10^6 bytes", "why_tests_cant": "The product of all start lines, header kinds, header counts, orders and bodies; bytes of bodies may be zero.", "anchors": ["src/osipparser2/osip_message_to_str.c:_osip_message_to_str", "src/osipparser2/osip_message_parse.c:_osip_message_parse", "src/osipparser2/osip_message_parse.c:osip_message_set_multiple_header"]}
{"id": "C89", "title": "Reading a message stays inside its bytes", "statement": "Whatever bytes are handed to osip_message_parse, no byte outside the copy made of them is read or written, and no NULL pointer is dereferenced.", "quantifier": "every byte string, including ones with NUL bytes inside", "why_tests_cant": "Memory errors of parsers need the one input that triggers them; there are infinitely many inputs.", "anchors": ["src/osipparser2/osip_message_parse.c:_osip_message_parse", "src/osipparser2/osip_message_parse.c:osip_util_replace_all_lws", "src/osipparser2/osip_message_parse.c:msg_headers_parse", "src/osipparser2/osip_message_parse.c:msg_osip_body_parse"]}
{"id": "C90", "title": "A message that was read is complete", "statement": "When osip_message_parse reports success, the start line is the one of a request or of a response, headers which may occur once occur at most once, there is exactly one Content-Length and it has a value, every header and body has the parts which the copying functions need, and osip_message_clone gives an equal message. A second header of a kind that may occur once is refused.", "quantifier": "every byte string that is read with success", "why_tests_cant": "Later code relies on these facts without checks; tests only try messages somebody thought of.", "anchors": ["src/osipparser2/osip_message_parse.c:_osip_message_parse", "src/osipparser2/osip_message.c:osip_message_clone"]}
{"id": "C91", "title": "A message is divided at its line ends and the body has the announced length", "statement": "Empty lines in front of a message are ignored. Its header lines are handed over in order with trimmed names and values, until one is refused, which refuses the message. Lines ended with CRLF and lines ended with LF give the same message. If there is a Content-Length, the body is exactly that many bytes behind the empty line, and a message with fewer bytes is refused. Otherwise it is everything behind the empty line and Content-Length becomes its length.", "quantifier": "every start line of the two forms, every list of header lines, every body up to 2^31 bytes, line ends CRLF, LF or CR", "why_tests_cant": "Framing errors depend on the mixture of line ends, lengths and bytes of the body, which may look like headers or line ends.", "anchors": ["src/osipparser2/osip_message_parse.c:_osip_message_parse", "src/osipparser2/osip_message_parse.c:msg_headers_parse", "src/osipparser2/osip_message_parse.c:msg_osip_body_parse"]}
{"id": "C92", "title": "Reading a session description stays inside the text", "statement": "sdp_message_parse reads only inside the terminated text that it is given, whatever the text and whatever the session already holds, and returns 0 or -1.", "quantifier": "every text, every session", "why_tests_cant": "The reading functions walk with unbounded pointers and search behind line ends; a read behind the terminator is usually not seen in a test.", "anchors": ["src/osipparser2/sdp_message.c:sdp_message_parse", "src/osipparser2/sdp_message.c:sdp_message_parse_m"]}
{"id": "C93", "title": "A session description that was read is complete", "statement": "When sdp_message_parse reports success for a new session, the lines v, o and t are there with all their parts, and every member of every line, time, connection, bandwidth, key, attribute and media has the parts that its line must have; no member is empty or holds a byte that would end it.", "quantifier": "every text that is read with success", "why_tests_cant": "Later code (writing, copying, accessors) relies on these facts without checks; tests only try descriptions somebody thought of.", "anchors": ["src/osipparser2/sdp_message.c:sdp_message_parse"]}
{"id": "C94", "title": "Writing a session description stays in its memory and gives the text of the session", "statement": "sdp_message_to_str writes only inside the block that it allocates and grows, for every session. If every line has the parts it must have, it returns 0 and the lines of the session in the order of RFC 2327; otherwise it returns -1 and no text.", "quantifier": "every session, of every size", "why_tests_cant": "The block grows by a calculation at every appended string; an error shows only for sizes at its edge.", "anchors": ["src/osipparser2/sdp_message.c:sdp_message_to_str", "src/osipparser2/sdp_message.c:__osip_sdp_append_string", "src/osipparser2/sdp_message.c:sdp_append_media"]}
{"id": "C95", "title": "A session description that was read is written and read back", "statement": "If sdp_message_parse reads a text with success, sdp_message_to_str gives a text for the session, and reading that text gives the same session.", "quantifier": "every text that is read with success", "why_tests_cant": "Each line has several forms and any member may be missing; a round trip can be tested only for chosen descriptions.", "anchors": ["src/osipparser2/sdp_message.c:sdp_message_parse", "src/osipparser2/sdp_message.c:sdp_message_to_str"]}
{"id": "C96", "title": "Copying a session description gives an equal one", "statement": "sdp_message_clone gives a copy equal to the session, or it reports an error and leaves no pointer to freed memory.", "quantifier": "every session", "why_tests_cant": "The copy is made by writing and reading; whether it is equal depends on all members together.", "anchors": ["src/osipparser2/sdp_message.c:sdp_message_clone"]}
{"id": "C97", "title": "The accessors of a session description add to one place", "statement": "Adding a connection, bandwidth, key, attribute or information changes the session for index -1, the media with the index otherwise, and nothing else; without such a media it fails and changes nothing. What was added, times, repeats, media and payloads included, is found by the reading accessors, and everything else is found as before. No index and no null session leads to undefined behaviour.", "quantifier": "every session, every index, every value", "why_tests_cant": "Indices and sessions are chosen by the application; the tests in the functions differ in small ways.", "anchors": ["src/osipparser2/sdp_accessor.c:sdp_message_a_attribute_add", "src/osipparser2/sdp_accessor.c:sdp_message_c_connection_add", "src/osipparser2/sdp_accessor.c:sdp_message_b_bandwidth_add", "src/osipparser2/sdp_accessor.c:sdp_message_k_key_set", "src/osipparser2/sdp_accessor.c:sdp_message_m_media_get"]}
{"id": "C98", "title": "Deleting from a session description removes exactly what was named", "statement": "Deleting attributes by name removes exactly those with the name, deleting at an index removes exactly the attribute or payload there; the others keep their order and the functions return.", "quantifier": "every session, every name, every index", "why_tests_cant": "Removing while walking over a list goes wrong only for certain positions and neighbours.", "anchors": ["src/osipparser2/sdp_accessor.c:sdp_message_a_attribute_del", "src/osipparser2/sdp_accessor.c:sdp_message_a_attribute_del_at_index", "src/osipparser2/sdp_accessor.c:sdp_message_m_payload_del"]}
{"id": "C99", "title": "The text of a message is never an old one", "statement": "Whatever is done to a message with the functions of the library, in any order, osip_message_to_str gives the text of the message as it is then, not one kept from an earlier call.", "quantifier": "every message, every sequence of setting, replacing, adding and writing calls", "why_tests_cant": "The kept text is dropped by each setting function on its own; a forgotten one shows only if the message was written before.", "anchors": ["src/osipparser2/osip_message_to_str.c:_osip_message_to_str", "src/osipparser2/osip_header.c:osip_message_replace_header", "src/osipparser2/osip_message.c:osip_message_set_status_code"]}
{"id": "C100", "title": "Headers are found and replaced by name", "statement": "osip_message_header_get_byname finds the first header of the name from the position on and its index, letters compared without case, or reports that there is none. osip_message_replace_header gives the name exactly one value, the new one, and leaves other headers as they were. osip_message_set_topheader puts a header in front of all others.", "quantifier": "every message, every name, value and position", "why_tests_cant": "Names differ in case and blanks, headers repeat and positions are chosen by the application.", "anchors": ["src/osipparser2/osip_header.c:osip_message_header_get_byname", "src/osipparser2/osip_header.c:osip_message_replace_header", "src/osipparser2/osip_header.c:osip_message_set_topheader"]}
{"id": "C101", "title": "Every queued event is executed once and in order", "statement": "osip_ict_execute and its three siblings execute the events of each transaction of the list in the order in which they were queued, each once, one transaction after the other, use no freed transaction and come to an end with all queues of the list empty.", "quantifier": "every list of transactions and queues, every behaviour of the callbacks", "why_tests_cant": "Callbacks may queue events, remove and free transactions during the loop; only few of the ways to do so are tested.", "anchors": ["src/osip2/osip.c:osip_ict_execute", "src/osip2/osip.c:osip_nict_execute", "src/osip2/osip.c:osip_ist_execute", "src/osip2/osip.c:osip_nist_execute"]}
{"id": "C102", "title": "Threads share a list of transactions without races, deadlocks and freed memory", "statement": "The list is changed only by the thread that holds its mutex, no thread waits for a mutex which is never given back, and no thread reads a transaction that was freed, whatever the order in which any number of threads run.", "quantifier": "every number of threads, every interleaving of their statements", "why_tests_cant": "A race needs one of very many interleavings; a test run shows a few of them, and not the same ones the next time.", "anchors": ["src/osip2/osip.c:__osip_find_transaction", "src/osip2/osip.c:osip_timers_ict_execute", "src/osip2/osip.c:__osip_add_ict", "src/osip2/osip.c:__osip_remove_ict_transaction", "src/osip2/osip.c:osip_ict_execute"]}
{"id": "C103", "title": "Every status code of RFC 3261 has its reason phrase", "statement": "osip_message_get_reason returns the phrase of RFC 3261 for each code of that document, the phrases of some later documents, and NULL for every other number. A phrase can stand in a status line as it is.", "quantifier": "every int", "why_tests_cant": "A table with a wrong entry works; a test would have to repeat the table, and other numbers are never tried.", "anchors": ["src/osipparser2/osip_message_parse.c:osip_message_get_reason"]}
{"id": "C104", "title": "The compensated clock never goes back and follows the real time", "statement": "The times returned by osip_getsystemtime never go back if the monotonic clock does not, whatever the real clock shows. When the device was asleep and the monotonic clock stood still, the time is made up for.", "quantifier": "every sequence of calls, every reading of the two clocks", "why_tests_cant": "Clock jumps and sleep cannot be produced in a test, and the state depends on all earlier calls.", "anchors": ["src/osip2/osip_time.c:osip_compensatetime", "src/osip2/osip_time.c:osip_getsystemtime"]}
{"id": "C105", "title": "The trace logs the chosen levels and stays in its buffer", "statement": "After any calls that choose levels, a message is logged exactly if the last call about its level says so. The logged line is the head with level, file and line number and then the text, cut at the size of the buffer, and nothing is written outside of the buffer.", "quantifier": "every sequence of calls, every level, file name, line number and text", "why_tests_cant": "Long names and lines at the edge of the buffer and levels outside the table do not occur in tests.", "anchors": ["src/osipparser2/osip_port.c:osip_trace", "src/osipparser2/osip_port.c:osip_trace_enable_until_level", "src/osipparser2/osip_port.c:osip_trace_enable_level", "src/osipparser2/osip_port.c:osip_trace_disable_level"]}
{"id": "C106", "title": "The functions of the library never deadlock and give back their mutexes", "statement": "Whatever functions any number of threads and their callbacks call, a thread that waits for a mutex waits for a thread that goes on, a function that returned holds no mutex, and nobody unlocks a mutex of another one.", "quantifier": "every number of threads, every interleaving, every way through the functions, every nesting of calls in callbacks", "why_tests_cant": "A deadlock needs two threads to meet between two statements, or a callback that calls one particular function.", "anchors": ["src/osip2/osip.c:osip_retransmissions_execute", "src/osip2/osip.c:osip_stop_retransmissions_from_dialog", "src/osip2/osip.c:osip_timers_gettimeout", "src/osip2/osip.c:__osip_find_transaction", "src/osip2/port_fifo.c:osip_fifo_add", "src/osip2/osip_transaction.c:osip_transaction_init"]}
{"id": "C107", "title": "The programs on both sides of a non-INVITE transaction agree on what happened", "statement": "Over a network that loses, repeats, delays and reorders messages: the program of the server is told about the request at most once and it is the one the client sent; a response the program of the client is told about was given by the program of the server, which knew the request; and when the client is told a final response, it has the content of every final response the server sent.", "quantifier": "every run of a client transaction and the server transaction it causes: every behaviour of both programs, timers, executors, transport callbacks and of the network", "why_tests_cant": "It speaks about two programs and every order in which copies of their messages can arrive.", "anchors": ["src/osip2/nict_fsm.c:nict_rcv_23456xx", "src/osip2/nist_fsm.c:nist_rcv_request", "src/osip2/nist_fsm.c:nist_snd_23456xx", "src/osip2/osip.c:osip_create_transaction"]}
{"id": "C108", "title": "The programs on both sides of an INVITE transaction agree on what happened", "statement": "Over a network that loses, repeats, delays and reorders messages: the program of the server is told about the INVITE at most once and it is the one the client sent; a response the program of the client is told about was given by the program of the server; final responses have the same content on both sides; and when the program of the server is told about the ACK, the program of the client was told the response it acknowledges.", "quantifier": "every run of a client transaction and the server transaction it causes: every behaviour of both programs, timers, executors, transport callbacks and of the network", "why_tests_cant": "It speaks about two programs and every order in which copies of their messages can arrive; the violation needs a transport callback that reports an error for a message that arrives.", "anchors": ["src/osip2/ict_fsm.c:ict_rcv_3456xx", "src/osip2/ist_fsm.c:ist_rcv_ack", "src/osip2/ist_fsm.c:ist_snd_3456xx", "src/osip2/osip.c:osip_create_transaction"]}
{"id": "C109", "title": "No header line is written that is not a header of the message", "statement": "When a message that was read is written again, a recipient who cuts the text at every CR LF, CR or LF finds before the first empty line exactly the start line, one line for each header of the message, and the Content-Length.", "quantifier": "all byte strings that are read with success, for all messages read from them and every text written from those", "why_tests_cant": "The text of one header can become a line of its own only for particular bytes in particular places (escapes in a URI, folded lines, quoted strings, the words of the start line); tests try a few of them.", "anchors": ["src/osipparser2/osip_message_parse.c:__osip_message_startline_parsereq", "src/osipparser2/osip_message_parse.c:msg_headers_parse", "src/osipparser2/osip_message_parse.c:osip_util_replace_all_lws", "src/osipparser2/osip_message_to_str.c:_osip_message_to_str", "src/osipparser2/osip_uri.c:osip_uri_to_str"]}
{"id": "C110", "title": "A thread that waits on a condition variable of the Windows port wakes up", "statement": "No two threads hold the external mutex; every signal wakes exactly one waiting thread or is kept for the next; a waiting thread that was signalled, or whose time is over, can return with the mutex as soon as the other threads give the mutex back; and a timed wait ends within a millisecond of the time asked for.", "quantifier": "any number of threads that lock, unlock, signal, wait and wait until a time in every interleaving of the statements of the functions; all pairs of times", "why_tests_cant": "The violation needs a second thread that calls osip_cond_wait while the first one waits; and the overflow of the time needs a deadline more than 24 days ahead.", "anchors": ["src/osip2/port_condv.c:osip_cond_wait", "src/osip2/port_condv.c:osip_cond_timedwait", "src/osip2/port_condv.c:osip_cond_signal", "src/osip2/port_condv.c:_delta_time"]}
{"id": "C111", "title": "The canonical text of a URI identifies it", "statement": "osip_uri_to_str_canonical writes a URI and then removes the percent escapes from the whole text. For every well-formed SIP URI the result is the scheme, user, password, host, port, parameters and headers with their bytes as they are. The text should identify the URI: two URIs with the same canonical text are equal, and the text is one line and reads back as the same URI.", "quantifier": "all well-formed SIP URIs (any bytes in user, password, parameters and headers), all pairs of them", "why_tests_cant": "a test compares a handful of texts; the claim is about every pair of URIs and every escaped byte", "anchors": ["src/osipparser2/osip_uri.c:1035-1054", "src/osipparser2/osip_uri.c:996-1030", "src/osipparser2/osip_uri.c:520-700"]}
{"id": "C112", "title": "A copy of a message is whole or not there when memory runs out", "statement": "Whatever allocations fail while a message, a header, a URI or a parameter is copied: no block is given back twice and no block of the caller is touched; the copy shares no memory with the source and can be given back; if the copy fails, every block allocated for it is given back; and if it succeeds, the copy has the same contents as the source.", "quantifier": "all contents of all fifteen structures (up to a whole message with any number of headers), all patterns of failing allocations", "why_tests_cant": "a test lets one allocation fail in one message; there are as many failing runs as subsets of allocations, for each message", "anchors": ["src/osipparser2/osip_message.c:172-374", "src/osipparser2/osip_message.c:117-170", "src/osipparser2/osip_list.c:34-64", "src/osipparser2/osip_uri.c:712-780", "src/osipparser2/osip_authorization.c:719-864", "src/osipparser2/osip_via.c:416-472", "src/osipparser2/osip_from.c:395-431", "src/osipparser2/osip_body.c:75-114"]}
{"id": "C113", "title": "Retransmissions are at least one interval apart", "statement": "However the calls of the timer loop, the arrival of messages and the execution of events follow each other: at most one timeout of a transaction waits at a time, and after an INVITE, a request or a non-2xx response was sent, the timer retransmits it only after the interval then set has passed.", "quantifier": "all transactions, all sequences of operations, all readings of a clock that is never set back", "why_tests_cant": "a test polls in one rhythm; a double retransmission needs the timer loop to run again before the event is executed", "anchors": ["src/osip2/osip.c:1432-1562", "src/osip2/osip.c:1041-1092", "src/osip2/osip_transaction.c:779-795", "src/osip2/ict_fsm.c:97-191", "src/osip2/nict_fsm.c:110-241", "src/osip2/ist_fsm.c:143-160", "src/osip2/ist_fsm.c:227-261", "src/osip2/ict.c:81-82"]}
{"id": "C114", "title": "Both ends of a dialog agree on it and recognise each other's requests", "statement": "When the callee makes its dialog from the INVITE and its response and the caller makes its own from that response as it arrives, the two dialogs mirror each other: same Call-ID, tags and URIs exchanged, route set reversed, same sequence number, same state. After any further changes of both, a request made inside the dialog by one end is recognised by the dialog of the other end, the response by the dialog of the sender, and no other dialog recognises it.", "quantifier": "all INVITEs and responses, all later updates of both dialogs, all requests made inside them", "why_tests_cant": "it relates two programs; a test runs one pair of messages", "anchors": ["src/osip2/osip_dialog.c:298-484", "src/osip2/osip_dialog.c:154-295", "src/osip2/osip_dialog.c:28-152"]}
{"id": "C115", "title": "Messages of a transaction find the transaction at the other end", "statement": "The ACK which a client makes for a non-2xx response is found to belong to the server transaction its INVITE created, also when the server put the source address into the top Via of both; a response with the Via and CSeq of the request as it arrived is found to belong to the client transaction of the request; a CANCEL, which has the branch of the INVITE, and its responses are found to belong to transactions created by a CANCEL only.", "quantifier": "all INVITEs, responses and source addresses, all reachable stacks at both ends", "why_tests_cant": "it composes construction at one end with matching at the other, for every message; the violation needs a second source port", "anchors": ["src/osip2/ict_fsm.c:233-356", "src/osip2/osip_transaction.c:565-777", "src/osip2/osip.c:739-964", "src/osipparser2/osip_message_parse.c:907-946", "src/osipparser2/osip_via.c:474-503"]}
{"id": "C116", "title": "Fragments of messages are read and written without loss", "statement": "Reading a text as a fragment (message/sipfrag) stays inside it; a text that is a message is read as the same message; a fragment without start line has an empty start line and all its headers, in order; and a fragment that is written is read back as the same fragment.", "quantifier": "all texts; all fragments with well-formed headers", "why_tests_cant": "a test reads a few fragments; the violation needs a header whose text looks like the end of a request line", "anchors": ["src/osipparser2/osip_message_parse.c:822-904", "src/osipparser2/osip_message_parse.c:31-250", "src/osipparser2/osip_message_to_str.c:320-721"]}
{"id": "C117", "title": "Bytes from the network become events and reach their transaction, and none crash the program", "statement": "Every message that is read becomes an event of the right type with all that the dispatcher needs; whatever bytes arrive in whatever order, mixed with whatever the program and the timers do, parsing, dispatching and executing them has a defined outcome; bytes that come again create no second transaction; and the text that one end writes for a response, an ACK or a request inside a dialog is recognised by the transaction or dialog of the other end.", "quantifier": "all byte strings, all sequences of datagrams and operations, all well-formed messages", "why_tests_cant": "the crash needs two datagrams of a certain form; the rest is about all pairs of programs which exchange text", "anchors": ["src/osip2/osip_event.c:28-66", "src/osip2/osip_event.c:114-131", "src/osip2/osip.c:721-869", "src/osipparser2/osip_message_parse.c:822-904", "src/osipparser2/osip_message_to_str.c:320-721", "src/osip2/osip_transaction.c:565-777"]}
{"id": "C118", "title": "The parser and the writer lose no block of memory", "statement": "Whatever the text and whichever allocations fail: the functions of the parser that read a header, a URI, a body or a message, that put a header into a message, and that write them to text never use NULL, an uninitialised variable or a block that was given back, give back no block twice, and when they return, with or without an error, every block that was allocated was given back, is kept by the structure that was filled, or is the result; osip_parse returns an event or has given back everything.", "quantifier": "every text, every pattern of failing allocations, every length of the execution; 80 functions", "why_tests_cant": "Each allocation can fail on its own, and the error paths of the parsers are hundreds; leaks do not show in results.", "anchors": ["src/osipparser2/osip_message_parse.c:_osip_message_parse", "src/osipparser2/osip_message_to_str.c:_osip_message_to_str", "src/osipparser2/osip_body.c:osip_body_set_contenttype", "src/osipparser2/osip_uri.c:osip_uri_param_add", "src/osipparser2/osip_uri.c:osip_uri_to_str", "src/osipparser2/osip_from.c:__osip_generic_param_parseall", "src/osipparser2/osip_via.c:osip_message_set_via", "src/osip2/osip_event.c:osip_parse"]}
{"id": "C119", "title": "Copies, dialogs, transactions and events lose no block of memory", "statement": "Whatever the input and whichever allocations fail: the functions that copy headers and messages, make and give back dialogs and transactions, take events and their messages, make the ACK, run the timers and handle retransmissions never use NULL, an uninitialised variable or a block that was given back, give back no block twice and lose none; a function that makes something either makes it, and it is the one block to give back, or sets the result to NULL and has given back everything; an event belongs to the transaction exactly if it was accepted; executing an event gives it back and gives its message to the transaction or back; giving back a dialog or a transaction gives back all that it owns.", "quantifier": "every input, every pattern of failing allocations, every length of the execution; 79 functions", "why_tests_cant": "Each allocation can fail on its own, and who owns a message after an event does not show in results.", "anchors": ["src/osipparser2/osip_message.c:osip_message_clone", "src/osipparser2/osip_list.c:osip_list_clone", "src/osipparser2/osip_via.c:osip_via_clone", "src/osip2/osip_dialog.c:__osip_dialog_init", "src/osip2/osip_transaction.c:osip_transaction_init", "src/osip2/osip_transaction.c:osip_transaction_execute", "src/osip2/osip_transaction.c:osip_transaction_free2", "src/osip2/ict.c:__osip_ict_init", "src/osip2/ict_fsm.c:ict_create_ack", "src/osip2/osip.c:osip_release", "src/osip2/port_fifo.c:osip_fifo_add"]}
{"id": "C120", "title": "Reading, writing, copying and changing a session description loses no block of memory", "statement": "Whatever the text and whichever allocations fail: the functions that read, write, copy and change descriptions of sessions never use NULL, an uninitialised variable or a block that was given back, give back no block twice and lose none; after reading, with or without an error, the session is the one block to give back; the text that is written is the one block to give back, or the result is NULL; a string that is given to a session belongs to the session on success and to the caller on an error; giving back a session gives back all that it owns.", "quantifier": "every input, every pattern of failing allocations, every length of the execution; 42 functions, some in variants", "why_tests_cant": "Each allocation can fail on its own, and a lost block does not show in results.", "anchors": ["src/osipparser2/sdp_message.c:sdp_message_parse", "src/osipparser2/sdp_message.c:sdp_message_parse_m", "src/osipparser2/sdp_message.c:sdp_message_to_str", "src/osipparser2/sdp_message.c:sdp_message_clone", "src/osipparser2/sdp_message.c:sdp_message_free", "src/osipparser2/sdp_accessor.c:sdp_message_s_name_set", "src/osipparser2/sdp_accessor.c:sdp_message_c_connection_add", "src/osipparser2/sdp_accessor.c:sdp_message_e_email_add"]}
{"id": "C121", "title": "A late copy of a request is not taken for a new request", "statement": "A waiting state that a transaction enters lasts at least the waiting period of RFC 3261 (on an unreliable transport 32 s for D, H and J, 5 s for K and I), whatever messages come and however often events are executed, unless a transport error is reported; a server transaction that was created for a request is therefore still there as long as its timers are run only within that period after its final response and the program removes it only when it has ended, and a copy of the request that arrives meanwhile creates no transaction.", "quantifier": "every reachable stack, every request with a magic-cookie branch over an unreliable transport, every run of operations in which the program treats the transaction as described, every clock that is not set back", "why_tests_cant": "How late a copy may come depends on clock readings of half a minute and on everything else that happens meanwhile.", "anchors": ["src/osip2/ist_fsm.c:ist_snd_3456xx", "src/osip2/ist_fsm.c:ist_rcv_ack", "src/osip2/nist_fsm.c:nist_snd_23456xx", "src/osip2/nist.c:__osip_nist_need_timer_j_event", "src/osip2/ist.c:__osip_ist_need_timer_h_event", "src/osip2/osip.c:osip_find_transaction_and_add_event", "src/osip2/osip.c:osip_remove_transaction"]}
{"id": "C122", "title": "Every error code has its own text", "statement": "For every int, osip_strerror reads inside its table; a code of osip_port.h gives its words, no two codes give the same words, other negative numbers give \"undefined\" and positive numbers \"success\".", "quantifier": "every int", "why_tests_cant": "The table has 61 entries written by hand, and 4294967296 numbers can be asked for.", "anchors": ["src/osipparser2/osip_port.c:osip_strerror", "include/osipparser2/osip_port.h"]}
{"id": "C123", "title": "osip_usleep waits as long as asked", "statement": "osip_usleep never waits longer than asked; it waits exactly as long for every number of microseconds; a negative number does not wait.", "quantifier": "every int", "why_tests_cant": "Tests wait for round times; the error is in the part of a second behind whole seconds.", "anchors": ["src/osipparser2/osip_port.c:osip_usleep"]}
{"id": "C124", "title": "A late copy of a final response is absorbed", "statement": "After a client transaction took a final response (for an INVITE, one of 300 or more) over an unreliable transport, it stays in COMPLETED as long as its timers are not run later than 32 s (INVITE) or 5 s (others) after that; every response with the branch and the CSeq method of the request is then found to belong to it or an older transaction, creates none, and is not reported to the program as a response; for an INVITE a copy of a response of 300 or more makes it send its ACK once more, and nothing else is sent.", "quantifier": "every history of a stack with any other transactions; every response and every number of copies", "why_tests_cant": "The times are tens of seconds, and any other traffic may come between.", "anchors": ["src/osip2/osip.c:__osip_find_transaction", "src/osip2/osip_transaction.c:__osip_transaction_matching_response_osip_to_xict_17_1_3", "src/osip2/ict_fsm.c:ict_retransmit_ack", "src/osip2/ict_fsm.c:ict_rcv_3456xx", "src/osip2/nict_fsm.c:nict_rcv_23456xx", "src/osip2/ict.c:__osip_ict_need_timer_d_event", "src/osip2/nict.c:__osip_nict_need_timer_k_event"]}
{"id": "C125", "title": "A transaction is not kept alive by its peer", "statement": "In every state in which RFC 3261 limits the time a transaction waits (CALLING, TRYING and PROCEEDING of a non-INVITE client, COMPLETED, CONFIRMED), the transaction has ended or gone on once all its events are executed and its timers are run later than that time after the state was entered (for an unanswered request: 32 s after the creation), whatever messages arrived meanwhile.", "quantifier": "every history of one transaction of each kind; every message from the peer and from the program", "why_tests_cant": "The times are tens of seconds and the peer may send anything at any moment of them; that a transaction never ends cannot be observed.", "anchors": ["src/osip2/osip.c:osip_timers_ict_execute", "src/osip2/osip.c:osip_timers_ist_execute", "src/osip2/osip.c:osip_timers_nict_execute", "src/osip2/osip.c:osip_timers_nist_execute", "src/osip2/ist_fsm.c:ist_rcv_ack", "src/osip2/ict.c:__osip_ict_init", "src/osip2/nict.c:__osip_nict_init"]}
{"id": "C126", "title": "How header lines are spelled, ordered and grouped does not matter", "statement": "If two messages have the same start line and body and header lines that RFC 3261 calls equivalent - names in another case or in their compact form (7.3.3), lines of different headers in another order, values of one header in one line separated by commas or in several lines (7.3.1) - then the parser reads the same message from both, or refuses both with a syntax error. Headers without a structure of their own are kept in one list in the order of the lines.", "quantifier": "every pair of messages with equivalent header lines, any number of them, whether they are valid or not", "why_tests_cant": "The number of spellings, orders and groupings is unbounded; tests compare a few messages, and a header read differently in one grouping only shows up with particular neighbours.", "anchors": ["src/osipparser2/osip_message_parse.c:osip_message_set_multiple_header", "src/osipparser2/osip_message_parse.c:osip_message_set__header", "src/osipparser2/osip_message_parse.c:msg_headers_parse", "src/osipparser2/osip_parser_cfg.c:__osip_message_call_method", "src/osipparser2/osip_parser_cfg.c:__osip_message_is_known_header"]}
{"id": "C127", "title": "A header that was read is written so that it is read the same", "statement": "Whatever text a peer sends as the value of a header: if the parser accepts it, the structure it makes of it can be written, and the written text is read as the same structure. So a message passed on has the headers that were received, and passing it on again changes nothing any more.", "quantifier": "every value of the headers Call-ID, CSeq, Content-Length, Mime-Version, Allow, Content-Encoding, Accept-Encoding, Accept-Language, Call-Info, Alert-Info, Error-Info, Content-Type, Accept, Via, From, To, Contact, Route, Record-Route, WWW-Authenticate, Authorization, Authentication-Info and of unknown headers, and every URI", "why_tests_cant": "Round-trip tests start from well-formed headers; here every accepted text counts, with blanks, commas, escaped quotes, quoted strings without end and semicolons at any place.", "anchors": ["src/osipparser2/osip_from.c:__osip_generic_param_parseall", "src/osipparser2/osip_accept_encoding.c:osip_accept_encoding_parse", "src/osipparser2/osip_accept_encoding.c:osip_accept_encoding_to_str", "src/osipparser2/osip_call_info.c:osip_call_info_parse", "src/osipparser2/osip_content_type.c:osip_content_type_parse", "src/osipparser2/osip_content_type.c:osip_content_type_to_str", "src/osipparser2/osip_call_id.c:osip_call_id_parse", "src/osipparser2/osip_cseq.c:osip_cseq_parse", "src/osipparser2/osip_header.c:osip_message_set_header", "src/osipparser2/osip_via.c:osip_via_parse", "src/osipparser2/osip_via.c:osip_via_to_str", "src/osipparser2/osip_from.c:osip_from_parse", "src/osipparser2/osip_from.c:osip_from_to_str", "src/osipparser2/osip_contact.c:osip_contact_parse", "src/osipparser2/osip_uri.c:osip_uri_parse", "src/osipparser2/osip_uri.c:osip_uri_to_str", "src/osipparser2/osip_www_authenticate.c:osip_www_authenticate_parse", "src/osipparser2/osip_authorization.c:osip_authorization_parse", "src/osipparser2/osip_authorization.c:osip_authorization_to_str", "src/osipparser2/osip_authentication_info.c:osip_authentication_info_parse"]}
{"id": "C128", "title": "A message that was read is written so that it is read the same", "statement": "If the parser accepts a message, the message can be written, and the parser reads from the written text the same start line, the same headers in the same order and the same body. Only Content-Length may differ: it is the length of the body that was kept. Writing the second message gives the same text again. So a proxy that passes a message on does not change what the next hop reads.", "quantifier": "every message in the form of lines: any start line the grammar allows, any number of header lines with any blanks, CR, LF or CRLF as line end, any body, junk line ends before", "why_tests_cant": "Tests compare a few well-formed messages; here all accepted texts count, and a header that is dropped or changed by writing depends on the combination of all of them.", "anchors": ["src/osipparser2/osip_message_parse.c:osip_message_parse", "src/osipparser2/osip_message_parse.c:msg_headers_parse", "src/osipparser2/osip_message_parse.c:msg_osip_body_parse", "src/osipparser2/osip_message_to_str.c:osip_message_to_str", "src/osipparser2/osip_message_to_str.c:__osip_message_startline_to_str", "src/osipparser2/osip_message_to_str.c:strcat_headers_one_per_line", "src/osipparser2/osip_from.c:osip_from_to_str"]}
{"id": "C129", "title": "Headers are compared by what identifies them", "statement": "The functions that compare Call-ID, CSeq, tags, Via and From or To of two messages behave like comparisons: a complete header is the same as itself, the order of the two does not matter, and headers that are the same as a third are the same. They say 'the same' exactly if the identifying parts are: Call-ID number and host; CSeq number and method, with INVITE and ACK counting as the same; the tag, or none in both; every part of a Via; host, user name and tag of an address.", "quantifier": "all pairs and triples of headers", "why_tests_cant": "Retransmissions and dialogs are recognised by these functions; a wrong answer shows only for a particular pair or triple of headers, for example if a parameter has a name that begins with the same letters as tag.", "anchors": ["src/osipparser2/osip_call_id.c:osip_call_id_match", "src/osipparser2/osip_cseq.c:osip_cseq_match", "src/osipparser2/osip_from.c:osip_from_tag_match", "src/osipparser2/osip_via.c:osip_via_match", "src/osipparser2/osip_from.c:osip_from_compare"]}
{"id": "C130", "title": "Headers are found by position in the order in which they arrived", "statement": "In a message that was read from lines, asking for the header of a kind at a position gives the value that is there if all values of the lines of this header are counted through from 0, in the order of the lines and of the values within a line, whatever the spelling of the name; values that the parser of the header does not accept and empty values are not counted, and one position behind the last is refused. A header that may only be there once is the first one that was accepted. The code is negative exactly if nothing is given, also for negative positions, so that a loop from position 0 sees every header once, in order, and ends.", "quantifier": "all messages in the form of lines whose values of the header have their quotes and angle brackets closed, all kinds of headers but Content-Length, all positions", "why_tests_cant": "The order of Via, Route and Record-Route decides where messages go; a wrong order or a lost value shows only for particular mixtures of lines, compact names and commas.", "anchors": ["src/osipparser2/osip_via.c:osip_message_get_via", "src/osipparser2/osip_route.c:osip_message_get_route", "src/osipparser2/osip_record_route.c:osip_message_get_record_route", "src/osipparser2/osip_contact.c:osip_message_get_contact", "src/osipparser2/osip_header.c:osip_message_get_header", "src/osipparser2/osip_message_parse.c:osip_message_set_multiple_header"]}
{"id": "C131", "title": "Parameters are found by their names", "statement": "Looking up a parameter by its name gives the first parameter of that name, whatever the letters of the names, and a negative code if there is none; it reads nothing outside of the strings. A parameter that is added, with its name and value freed of the blanks around them, is what is found by its name afterwards, and what is found for other names does not change.", "quantifier": "all lists of parameters, names and values", "why_tests_cant": "Tags, branches, lr, received and rport are all found this way; a name that is the beginning of another one, or a second parameter of the same name, is seldom in a test.", "anchors": ["src/osipparser2/osip_uri.c:osip_uri_param_get_byname", "src/osipparser2/osip_uri.c:osip_uri_param_add", "src/osipparser2/osip_uri.c:osip_uri_param_set"]}
{"id": "C132", "title": "Numbers in messages are read exactly, and those that do not fit are refused", "statement": "A number in a message, with blanks and a sign before it and anything but a digit behind it, is read as exactly that number if it fits an int, and is seen to be invalid otherwise. So a Via header with a port that does not fit is refused, and the length of a body is the number written in Content-Length.", "quantifier": "all texts of this form, with numbers of any size; all Via headers; all bodies that are not multipart", "why_tests_cant": "The checks for numbers out of range exist and look right; only numbers of ten and more digits show that they never succeed.", "anchors": ["src/osipparser2/osip_port.c:osip_atoi", "src/osipparser2/osip_via.c:osip_via_parse", "src/osipparser2/osip_message_parse.c:msg_osip_body_parse", "src/osip2/osip.c:osip_response_get_destination", "src/osip2/osip_dialog.c:osip_dialog_update_osip_cseq_as_uas"]}
{"id": "C133", "title": "A session description arrives in a message as it was sent", "statement": "A session description that is complete is written, added as a body to a message, alone or as one of several with any boundary, and the message is written; whoever reads its bytes finds as many bodies in the same order, and reading them gives the same sessions.", "quantifier": "all complete sessions, also those read from any text; all well-formed messages; any number of sessions and any boundary", "why_tests_cant": "Two programs, two parsers and two writers have to agree; whether a boundary can occur in a session description, or whether line ends are changed on the way, depends on values no test tries.", "anchors": ["src/osipparser2/sdp_message.c:sdp_message_to_str", "src/osipparser2/osip_body.c:osip_message_set_body", "src/osipparser2/osip_body.c:osip_message_set_body_mime", "src/osipparser2/osip_message_to_str.c:osip_message_to_str", "src/osipparser2/osip_message_parse.c:osip_message_parse", "src/osipparser2/osip_body.c:osip_message_get_body", "src/osipparser2/sdp_message.c:sdp_message_parse"]}
{"id": "C134", "title": "With the hash tables the same transactions are found as with the lists", "statement": "In a library built with the dict library, what is in the tables is at all times a transaction of the stack under its own branch; a message that belongs to a transaction by the rules of the lists is found to belong to one through the tables; and where no two transactions have its branch and the one that has it has its method and, for a request, its sender, it is the same transaction.", "quantifier": "all sequences of creations, failed creations, removals, repeated removals, deliveries and other happenings; all messages", "why_tests_cant": "An entry that outlives its transaction is a use after free that needs two transactions with one branch and a certain order of removals; the option is off in most builds, so that tests do not run the code at all.", "anchors": ["src/osip2/osip.c:__osip_add_ict", "src/osip2/osip.c:__osip_add_ist", "src/osip2/osip.c:__osip_add_nict", "src/osip2/osip.c:__osip_add_nist", "src/osip2/osip.c:__osip_remove_ict_transaction", "src/osip2/osip.c:__osip_remove_ist_transaction", "src/osip2/osip.c:__osip_remove_nict_transaction", "src/osip2/osip.c:__osip_remove_nist_transaction", "src/osip2/osip.c:osip_transaction_find", "src/osip2/osip_transaction.c:osip_transaction_init"]}
{"id": "C135", "title": "A stack with hash tables behaves as some stack without them", "statement": "In a library built with the dict library, every history of a stack takes its transactions through states that a stack without tables can go through; so ids are unique there too. A copy of a received request with a magic-cookie branch, arriving while the transaction that the request created is in its list, is found to belong to a transaction of the stack and creates none.", "quantifier": "all sequences of creations, removals, deliveries and other happenings; all messages", "why_tests_cant": "The option is off in most builds, so that nothing tested without it says anything about the library built with it; the claim is about all histories of both.", "anchors": ["src/osip2/osip.c:osip_transaction_find", "src/osip2/osip.c:osip_find_transaction", "src/osip2/osip.c:osip_find_transaction_and_add_event", "src/osip2/osip.c:osip_create_transaction", "src/osip2/osip_transaction.c:osip_transaction_init", "src/osip2/osip_transaction.c:osip_transaction_add_event"]}
{"id": "C136", "title": "The library compiled with MINISIZE reads the same messages", "statement": "For all bytes, osip_message_parse (and osip_message_parse_sipfrag) of a library compiled with MINISIZE gives the same result as that of the full library. If the message is accepted, both have the same start line, the same values of the headers both know, the same bodies, and the same other headers in the same order; every header that only the full library has a structure for is among the other headers of the small one, and the structures of the full one are those its setter makes of these values, in their order.", "quantifier": "for all byte strings, both readings of plain char and every outcome of sscanf", "why_tests_cant": "The two libraries are two builds with different tables of headers, hash tables and structures; tests run one build on a few messages, while the claim compares both on every message, including refused ones.", "anchors": ["src/osipparser2/osip_parser_cfg.c:parser_init", "src/osipparser2/osip_message_parse.c:osip_message_set__header", "src/osipparser2/osip_message_parse.c:osip_message_set_multiple_header", "src/osipparser2/osip_message_parse.c:osip_message_parse", "src/osipparser2/osip_message_parse.c:osip_message_parse_sipfrag"]}
{"id": "C137", "title": "A stack in a library compiled with MINISIZE goes through the same states", "statement": "For every sequence of datagrams, creations, deliveries, removals and other operations, the transactions of a stack whose library is compiled with MINISIZE are at every point those of a stack in the full library to which the same happened, and one of them runs into undefined behaviour only if the other does.", "quantifier": "all stacks, all sequences of operations, all bytes of the datagrams, both readings of plain char and every outcome of sscanf", "why_tests_cant": "Tests run one build on a few messages; which headers have a structure of their own is invisible to the transactions only if no header line of any datagram is read differently or refused by one of the two builds.", "anchors": ["src/osip2/osip_event.c:osip_parse", "src/osipparser2/osip_message_parse.c:osip_message_parse", "src/osipparser2/osip_parser_cfg.c:parser_init", "src/osip2/osip.c:osip_find_transaction_and_add_event", "src/osip2/osip.c:osip_create_transaction"]}
{"id": "C138", "title": "Reading does not depend on whether plain char is signed", "statement": "From the same bytes, a library on a machine with signed plain char and one on a machine with unsigned plain char read the same message or refuse with the same result (whole messages, fragments, and with MINISIZE), and stacks to which the same happens go through the same states on both; although header names are looked up by a hash that adds plain chars.", "quantifier": "all byte strings, including bytes above 127 in header names; all stacks and sequences of operations", "why_tests_cant": "A test runs on one machine; a difference between machines shows up only for names with bytes above 127 whose slot happens to be taken on one of them.", "anchors": ["src/osipparser2/osip_port.c:osip_hash", "src/osipparser2/osip_parser_cfg.c:parser_init", "src/osipparser2/osip_parser_cfg.c:__osip_message_is_known_header", "src/osipparser2/osip_message_parse.c:osip_message_parse", "src/osipparser2/osip_message_parse.c:osip_message_parse_sipfrag", "src/osip2/osip_event.c:osip_parse"]}
{"id": "C139", "title": "What a dialog knows after any updates", "statement": "After any sequence of updates of a dialog, its remote sequence number is that of the last request handed to it for this purpose, its remote target the first Contact of the last message that had one, and its local sequence number, Call-ID, local tag, URIs and side are those it was made with. A dialog made from a request that comes first has the identifiers, target, route set and sequence number of that request, and the local sequence number the program gives. The dialog of a callee has the parameter line of the Request-URI of the INVITE.", "quantifier": "all dialogs, all sequences of updates with all messages, all requests; sequence numbers below 2^31, Contacts with an address", "why_tests_cant": "Which update comes last, and what a message without Contact or CSeq in between does, depends on the whole history; tests run a few updates.", "anchors": ["src/osip2/osip_dialog.c:osip_dialog_update_osip_cseq_as_uas", "src/osip2/osip_dialog.c:osip_dialog_update_route_set_as_uas", "src/osip2/osip_dialog.c:osip_dialog_update_route_set_as_uac", "src/osip2/osip_dialog.c:osip_dialog_update_tag_as_uac", "src/osip2/osip_dialog.c:osip_dialog_set_state", "src/osip2/osip_dialog.c:osip_dialog_init_as_uac_with_remote_request", "src/osip2/osip_dialog.c:osip_dialog_init_as_uas"]}
