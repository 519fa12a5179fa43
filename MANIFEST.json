{
 "claims": [
  {
   "property": "C01",
   "status": "proved",
   "theorems": [
    "Osip.c01_terminated_silent",
    "Osip.c01_terminated_silent_forever"
   ],
   "note": "Every event, every later history."
  },
  {
   "property": "C02",
   "status": "proved",
   "theorems": [
    "Osip.c02_kill_once"
   ],
   "note": "Every history of one transaction."
  },
  {
   "property": "C03",
   "status": "partial",
   "theorems": [
    "Osip.c03_rfc_transitions_partial",
    "Osip.c03_violated"
   ],
   "note": "The property is false for an ICT receiving a 3xx-6xx from which no ACK can be built (witness c03_violated). The partial theorem covers every other transition."
  },
  {
   "property": "C04",
   "status": "proved",
   "theorems": [
    "Osip.c04_acked_and_reported_once",
    "Osip.c04_retransmission"
   ],
   "note": "Every history of an INVITE client transaction."
  },
  {
   "property": "C05",
   "status": "proved",
   "theorems": [
    "Osip.c05_2xx_ends_without_ack",
    "Osip.c05_2xx_step"
   ],
   "note": "Every history of an INVITE client transaction."
  },
  {
   "property": "C06",
   "status": "proved",
   "theorems": [
    "Osip.c06_no_invite_after_response"
   ],
   "note": "Every history of an INVITE client transaction, including stale timer A events."
  },
  {
   "property": "C07",
   "status": "proved",
   "theorems": [
    "Osip.c07_unreliable",
    "Osip.c07_reliable"
   ],
   "note": "Unreliable: every history; the deadline is exact while it is below 1000 s (see C27). Reliable: every history in which timer events are queued by the library's timer loop."
  },
  {
   "property": "C08",
   "status": "proved",
   "theorems": [
    "Osip.c08_trying",
    "Osip.c08_proceeding",
    "Osip.c08_no_send_after_final"
   ],
   "note": "Every history of a non-INVITE client transaction."
  },
  {
   "property": "C09",
   "status": "partial",
   "theorems": [
    "Osip.c09_nict_outcome",
    "Osip.c09_ict_at_most_one",
    "Osip.c09_ict_outcome_partial",
    "Osip.c09_violated"
   ],
   "note": "Non-INVITE client: complete. INVITE client: at most one outcome always; exactly one unless the response cannot be acknowledged, for which the property is false (witness c09_violated)."
  },
  {
   "property": "C10",
   "status": "proved",
   "theorems": [
    "Osip.c10_invite_reported_once",
    "Osip.c10_retransmission"
   ],
   "note": "Every history of an INVITE server transaction."
  },
  {
   "property": "C100",
   "status": "partial",
   "theorems": [
    "Osip.c100_found",
    "Osip.c100_negative",
    "Osip.c100_replaced",
    "Osip.c100_one_value_partial",
    "Osip.c100_violated",
    "Osip.c100_top"
   ],
   "note": "Violated: a negative position reads a null pointer (c100_negative), replacing removes only the first of several headers and none if the name has a blank (c100_violated). Proved for positions from 0, and for names without blanks that occur at most once."
  },
  {
   "property": "C101",
   "status": "partial",
   "theorems": [
    "Osip.Exec.c101_each_once",
    "Osip.Exec.c101_done",
    "Osip.Exec.c101_defined_partial",
    "Osip.Exec.c101_ends_partial",
    "Osip.Exec.c101_violated"
   ],
   "note": "Violated: a callback that frees another transaction of the list leads to a read of freed memory, one that queues an event for its own transaction each time keeps the loop going (c101_violated). Proved without such callbacks; order and at most once hold for all callbacks that only append to queues."
  },
  {
   "property": "C102",
   "status": "partial",
   "theorems": [
    "Osip.Threads.c102_mutex",
    "Osip.Threads.c102_no_deadlock",
    "Osip.Threads.c102_list",
    "Osip.Threads.c102_no_freed_partial",
    "Osip.Threads.c102_violated"
   ],
   "note": "Violated: with two executing threads, or if another thread than the executing one creates transactions, a freed transaction is used, the latter inside osip_create_transaction (c102_violated). Proved if one thread creates, executes and frees while the others deliver events and look at timers; mutex discipline and absence of deadlocks always. The model has one list and no callback that takes a mutex of its own."
  },
  {
   "property": "C103",
   "status": "proved",
   "theorems": [
    "Osip.Reason.c103_rfc3261",
    "Osip.Reason.c103_others",
    "Osip.Reason.c103_printable"
   ],
   "note": "For every int; the list of RFC 3261 is written down again from the document."
  },
  {
   "property": "C104",
   "status": "partial",
   "theorems": [
    "Osip.Clock.c104_never_back",
    "Osip.Clock.c104_follows_partial",
    "Osip.Clock.c104_violated",
    "Osip.Clock.c104_lag"
   ],
   "note": "Violated: one hour after the last adjustment nothing is adjusted any more, for good (c104_violated, c104_lag). Proved: the clock never goes back; up to that hour it is less than two seconds behind, if the clocks do not change during a call."
  },
  {
   "property": "C105",
   "status": "partial",
   "theorems": [
    "Osip.Trace.c105_levels",
    "Osip.Trace.c105_level_violated",
    "Osip.Trace.c105_line_partial",
    "Osip.Trace.c105_silent",
    "Osip.Trace.c105_name",
    "Osip.Trace.c105_line_violated"
   ],
   "note": "Violated: levels are not checked (c105_level_violated), and a file name of some 490 bytes leads to a write outside the buffer (c105_line_violated). Proved for the eight levels and shorter names."
  },
  {
   "property": "C106",
   "status": "partial",
   "theorems": [
    "Osip.Locks.c106_no_deadlock_partial",
    "Osip.Locks.c106_released_partial",
    "Osip.Locks.c106_can_finish_partial",
    "Osip.Locks.c106_violated"
   ],
   "note": "Violated: osip_retransmissions_execute calls cb_send_message with ixt_fastmutex held; a callback that stops retransmissions waits for its own thread for ever (c106_violated). Proved for all threads and callbacks if this one callback only calls functions which take no ixt_fastmutex and call no other callback."
  },
  {
   "property": "C107",
   "status": "proved",
   "theorems": [
    "Osip.c107_request",
    "Osip.c107_response",
    "Osip.c107_agreement"
   ],
   "note": "One server transaction: a copy of the request that arrives after the server transaction was given back would start another one and is left out; C121 says how long none does."
  },
  {
   "property": "C108",
   "status": "partial",
   "theorems": [
    "Osip.c108_invite",
    "Osip.c108_response",
    "Osip.c108_agreement",
    "Osip.c108_ack_partial",
    "Osip.c108_violated"
   ],
   "note": "Violated: if the transport callback returns something else than 0 for an ACK that arrives all the same, the program of the server is told about the ACK and the program of the client about a transport error, not about the response (c108_violated). Proved: everything else, and the part about the ACK when no transport error was reported. One server transaction, as in C107."
  },
  {
   "property": "C109",
   "status": "partial",
   "theorems": [
    "Osip.c109_lines_partial",
    "Osip.c109_exact_partial",
    "Osip.c109_violated"
   ],
   "note": "Violated: the blanks between the words of the start line are looked for behind its end, so a method or request-URI can have line ends in it (c109_violated). Proved for all bytes whose first line has two blanks, the second at least two characters behind the first."
  },
  {
   "property": "C11",
   "status": "proved",
   "theorems": [
    "Osip.c11_first",
    "Osip.c11_unreliable",
    "Osip.c11_ack",
    "Osip.c11_no_send_after_ack",
    "Osip.c11_reliable"
   ],
   "note": "Every history of an INVITE server transaction; the reliable case when timer events are queued by the library's timer loop."
  },
  {
   "property": "C110",
   "status": "partial",
   "theorems": [
    "Osip.Cond.c110_exclusion",
    "Osip.Cond.c110_signals",
    "Osip.Cond.c110_returns_partial",
    "Osip.Cond.c110_two_waiters",
    "Osip.Cond.c110_violated",
    "Osip.Cond.c110_time_partial",
    "Osip.Cond.c110_time_violated"
   ],
   "note": "Violated: when a thread waits in osip_cond_wait and another one calls it, neither ever returns and the mutex is never given back (c110_two_waiters, c110_violated); a time 25 days ahead overflows (c110_time_violated). Proved: mutual exclusion and signals always, return with at most one thread in osip_cond_wait and any number in osip_cond_timedwait, the time up to 24 days."
  },
  {
   "property": "C111",
   "status": "partial",
   "theorems": [
    "Osip.c111_text",
    "Osip.c111_same_partial",
    "Osip.c111_violated"
   ],
   "note": "The text is proved for all well-formed URIs. Injectivity is proved for URIs whose components need no escape; it fails in general, with three witnesses: two URIs with one text, a line break in the text, a text which does not read back."
  },
  {
   "property": "C112",
   "status": "partial",
   "theorems": [
    "Osip.Copy.c112_safe",
    "Osip.Copy.c112_no_leak_partial",
    "Osip.Copy.c112_equal_partial",
    "Osip.Copy.c112_equal_checked",
    "Osip.Copy.c112_violated"
   ],
   "note": "Safety and independence hold for all failing allocations. That nothing is lost is proved if list nodes can be allocated, equality if no allocation fails or every strdup is tested; both fail otherwise, with witnesses: osip_list_add is not tested, strdup is not tested in URIs, and twelve tests in osip_authorization_clone look at the source."
  },
  {
   "property": "C113",
   "status": "partial",
   "theorems": [
    "Osip.c113_once_partial",
    "Osip.c113_spacing_partial",
    "Osip.c113_violated",
    "Osip.c113_violated_first",
    "Osip.c113_violated_threads"
   ],
   "note": "Proved for one thread, for INVITE clients with any polling and for the other kinds when the timer loop runs with no event waiting; from the first sending on for requests and responses, from the first retransmission on for INVITE. Violated otherwise, with witnesses: two runs of the timer loop in a row retransmit twice (INVITE server, non-INVITE client), timer A starts when the transaction is created instead of when the INVITE is sent, and a timer thread queues a second timeout while the first is executed."
  },
  {
   "property": "C114",
   "status": "partial",
   "theorems": [
    "Osip.c114_mirror",
    "Osip.c114_requests",
    "Osip.c114_other_partial",
    "Osip.c114_violated"
   ],
   "note": "That both ends mirror each other and recognise each other's requests and responses is proved for all messages and all later updates. That no other dialog recognises a request is proved for dialogs with another Call-ID or another remote tag; it is false for two dialogs of the callee that differ in the local tag only, with a witness: the To tag is not compared."
  },
  {
   "property": "C115",
   "status": "partial",
   "theorems": [
    "Osip.c115_ack",
    "Osip.c115_ack_found",
    "Osip.c115_response",
    "Osip.c115_cancel",
    "Osip.c115_old_partial",
    "Osip.c115_violated"
   ],
   "note": "Proved for all messages with magic-cookie branches (responses and CANCEL: for all messages). For RFC 2543 requests it is proved if INVITE and ACK come from the same address and port, and false otherwise, with a witness: the whole text of the Via is compared, including the filled-in rport."
  },
  {
   "property": "C116",
   "status": "partial",
   "theorems": [
    "Osip.c116_messages",
    "Osip.c116_fragments",
    "Osip.c116_in_bounds_partial",
    "Osip.c116_division_partial",
    "Osip.c116_round_trip_partial",
    "Osip.c116_headers_round_trip_partial",
    "Osip.c116_bodies_round_trip_partial",
    "Osip.c116_violated"
   ],
   "note": "That messages are read the same is proved for all texts. Staying inside the text is proved under the two conditions of C89, which are needed. Division and round trip are proved for all fragments which do not look like a message with start line (with a Via, for all with a version without space and a host without slash). For the others it is false, with witnesses: a subject such as 'sip:a@b SIP/2.0' makes the fragment a request. Round trip with bodies is proved for fragments with start line, under the conditions of C88."
  },
  {
   "property": "C117",
   "status": "partial",
   "theorems": [
    "Osip.c117_event",
    "Osip.c117_no_crash_partial",
    "Osip.c117_text",
    "Osip.c117_headers",
    "Osip.c117_retransmission",
    "Osip.c117_response",
    "Osip.c117_ack",
    "Osip.c117_dialog",
    "Osip.c117_violated"
   ],
   "note": "Events, retransmissions (magic-cookie branch), responses, ACKs and dialogs over text are proved. That no bytes crash the program is proved for all sequences of fewer than 2^31-1 operations, with three kinds of bytes excluded: those of C89 (continued last line, multipart boundaries without room) and an ACK without To header. The last one is a violation by two datagrams, with a witness."
  },
  {
   "property": "C118",
   "status": "partial",
   "theorems": [
    "Osip.Own.c118_memory_partial",
    "Osip.Own.c118_written",
    "Osip.Own.c118_event_partial",
    "Osip.Own.c118_violated",
    "Osip.Own.c118_two_content_types"
   ],
   "note": "80 functions as programs over blocks of memory; exact: c118_memory_partial for all functions but those of unsafeFuns, c118_violated for each of those. Wrong in the code: two Content-Type lines in a part of a body lose a block without any failing allocation (c118_two_content_types); osip_realloc results not looked at in the writers; osip_list_add results not looked at anywhere."
  },
  {
   "property": "C119",
   "status": "partial",
   "theorems": [
    "Osip.Own.Stack.c119_memory_partial",
    "Osip.Own.Stack.c119_made_partial",
    "Osip.Own.Stack.c119_freed",
    "Osip.Own.Stack.c119_event_done_partial",
    "Osip.Own.Stack.c119_event_owner_partial",
    "Osip.Own.Stack.c119_taken",
    "Osip.Own.Stack.c119_violated",
    "Osip.Own.Stack.c119_release_violated",
    "Osip.Own.Stack.c119_event_owner_violated",
    "Osip.Own.Stack.c119_dangling",
    "Osip.Own.Stack.c119_body_unset"
   ],
   "note": "79 functions as programs over blocks of memory; exact: c119_memory_partial for all but those of unsafeFuns, c119_violated for each of those. Wrong in the code: osip_release loses pending retransmissions without any failing allocation; the results of osip_list_add are not looked at; __osip_ict_init leaves a dangling pointer when there is no Via; osip_body_clone does not set its result on an error. What the `_free` functions of the headers and messages do is one step (C32 and others)."
  },
  {
   "property": "C12",
   "status": "proved",
   "theorems": [
    "Osip.c12_one_final",
    "Osip.c12_terminated_after_2xx"
   ],
   "note": "Every history of an INVITE server transaction."
  },
  {
   "property": "C120",
   "status": "partial",
   "theorems": [
    "Osip.Own.Sdp.c120_memory_partial",
    "Osip.Own.Sdp.c120_made_partial",
    "Osip.Own.Sdp.c120_freed",
    "Osip.Own.Sdp.c120_parse_partial",
    "Osip.Own.Sdp.c120_given_partial",
    "Osip.Own.Sdp.c120_violated",
    "Osip.Own.Sdp.c120_text_violated",
    "Osip.Own.Sdp.c120_set_violated",
    "Osip.Own.Sdp.c120_dangling",
    "Osip.Own.Sdp.c120_added_violated"
   ],
   "note": "Functions of sdp_message.c and sdp_accessor.c as programs over blocks of memory; exact: c120_memory_partial for all but those of unsafeFuns, c120_violated for each of those. Wrong in the code: a line that is there too often or in another place (s= before and after o=, i= or k= twice for a media, i=, c= or k= after the lines a= of the session) overwrites a pointer without any failing allocation; setting a field again loses what it held; sdp_message_clone leaves a dangling pointer when it fails; the results of osip_realloc and osip_list_add are not looked at."
  },
  {
   "property": "C121",
   "status": "partial",
   "theorems": [
    "Osip.c121_stays",
    "Osip.c121_alive",
    "Osip.c121_copy_partial",
    "Osip.c121_violated"
   ],
   "note": "Waiting states of all four kinds of transactions last as long as RFC 3261 wants (c121_stays); server transactions live at least that long (c121_alive) and copies of their request are recognised (c121_copy_partial), except for INVITEs answered with a 2xx: the transaction ends at once, and a copy delayed by a tenth of a second is reported as a new INVITE (c121_violated). Requests without magic-cookie branch: see C20."
  },
  {
   "property": "C122",
   "status": "proved",
   "theorems": [
    "Osip.Port.c122_strerror",
    "Osip.Port.c122_distinct"
   ],
   "note": ""
  },
  {
   "property": "C123",
   "status": "partial",
   "theorems": [
    "Osip.Port.c123_usleep_partial",
    "Osip.Port.c123_violated"
   ],
   "note": "Exact: the wait is too short exactly if more than a second and not whole seconds are asked for (c123_violated): the part behind the whole seconds is dropped. Modelled: the branch for systems with select."
  },
  {
   "property": "C124",
   "status": "proved",
   "theorems": [
    "Osip.c124_waits",
    "Osip.c124_absorbed"
   ],
   "note": "The program does not remove the transaction meanwhile, and no transport error is reported. A 2xx to an INVITE ends the transaction at once, as RFC 3261 wants."
  },
  {
   "property": "C125",
   "status": "partial",
   "theorems": [
    "Osip.c125_ends_partial",
    "Osip.c125_unanswered",
    "Osip.c125_violated"
   ],
   "note": "Proved for every state but CONFIRMED, and for CONFIRMED if no further ACK is executed. False otherwise (c125_violated): every copy of the ACK starts timer I again, so that a peer that repeats it every four seconds keeps the transaction for ever."
  },
  {
   "property": "C126",
   "status": "partial",
   "theorems": [
    "Osip.c126_alike_partial",
    "Osip.c126_order",
    "Osip.c126_violated"
   ],
   "note": "Equivalence of header lines is an inductive relation made of the three rules of RFC 3261. Proved for values in the grammar of C46 (no escaped quotes in quoted strings, URIs of recognised schemes) and for the compact names of headers with a structure of their own. False for the compact names s and k of RFC 3261 (c126_violated): they are kept as unknown headers under the compact name."
  },
  {
   "property": "C127",
   "status": "partial",
   "theorems": [
    "Osip.c127_plain",
    "Osip.c127_params_partial",
    "Osip.c127_other",
    "Osip.c127_violated",
    "Osip.c127_via_partial",
    "Osip.c127_via_violated",
    "Osip.c127_uri_partial",
    "Osip.c127_address_partial",
    "Osip.c127_contact_partial",
    "Osip.c127_address_violated",
    "Osip.c127_www_authenticate_partial",
    "Osip.c127_authorization_partial",
    "Osip.c127_authentication_info_partial",
    "Osip.c127_auth_violated"
   ],
   "note": "Proved for every accepted value without parameters, and for every accepted value with parameters that has no tab, CR or LF and no blank name or value (Content-Type and Accept: and no parameter without value, see C77). False otherwise (c127_violated): a blank name or value is read as an empty one, and what is written is refused; with a tab before a quoted string the semicolon in it separates parameters. Via: proved for every accepted value without comment, tab, CR and LF, blank part or stray opening bracket; false with these (c127_via_violated), e.g. a comment before the parameters is read into the host, too. URIs and addresses: proved for every accepted value without tab, CR and LF whose URI has no empty part, no stray separator in host or port, no x-obr or x-obp parameter and, in an address, at least six characters; false with these (c127_address_violated), e.g. the address sip:a is accepted, but written as <sip:a>, which is refused. WWW-Authenticate, Authorization and Authentication-Info: proved for every accepted value of which some field was read and the tokens are not empty, have no stray quote and at least five characters with their name (Authentication-Info: and not both nextnonce and opaque, see C81); false otherwise (c127_auth_violated), e.g. \"Digest nc=1, qop=auth\" is written as \"Digest qop=auth, nc=1\", from which nc is not read."
  },
  {
   "property": "C128",
   "status": "partial",
   "theorems": [
    "Osip.c128_message_partial",
    "Osip.c128_multipart_partial",
    "Osip.c128_violated",
    "Osip.c128_multipart_violated"
   ],
   "note": "Proved for every accepted message in the form of lines (any spelling and order of headers, any blanks, CR, LF or CRLF) whose values have no tab inside, whose URI and headers have no empty part and no separator in the wrong place (MessagePlain, the conditions of C127), in which every header has a value, no text of a structured header is divided at a comma outside of quotes and URIs, no Via has a comment, and which is not multipart and has a body of less than a million bytes; written a second time it gives the same text. Multipart messages (c128_multipart_partial) under the conditions of C88 on the bodies; the first letters of the names of part headers become capitals. False for several bodies without MIME-Version (c128_multipart_violated): written without boundary, and refused. False without the conditions (c128_violated): a response with `From: sip:a` is accepted, but what is written of it is refused; a header without value comes back with an empty one; the URI parameter x-obr is lost."
  },
  {
   "property": "C129",
   "status": "partial",
   "theorems": [
    "Osip.c129_call_id",
    "Osip.c129_cseq",
    "Osip.c129_tag",
    "Osip.c129_via",
    "Osip.c129_from_partial",
    "Osip.c129_violated",
    "Osip.c129_incomplete_violated"
   ],
   "note": "Call-ID, CSeq, tag and Via: proved for all headers (Via: that all parts are compared, for the well-formed headers of C50). From and To (osip_from_compare): order and reflexivity for all headers; which parts are compared, for SIP addresses without a parameter that begins with tag but is not it. False otherwise (c129_violated): the comparison is not transitive, since a missing tag or user name differs from nothing; tags of other than SIP addresses are ignored; a parameter such as tagged is taken for the tag; port and scheme are ignored. c129_incomplete_violated: a tag without value differs from itself, Via headers that are not well formed can have the same text."
  },
  {
   "property": "C13",
   "status": "proved",
   "theorems": [
    "Osip.c13_request_reported_once",
    "Osip.c13_retransmission",
    "Osip.c13_one_final"
   ],
   "note": "Every history of a non-INVITE server transaction."
  },
  {
   "property": "C130",
   "status": "proved",
   "theorems": [
    "Osip.c130_by_position",
    "Osip.c130_others",
    "Osip.c130_code",
    "Osip.c130_loop"
   ],
   "note": "The order of several kinds against each other is not kept by the library. Headers without a structure of their own are in one list, with their names in lower case (c130_others). Content-Length may be set when the body is read (C91)."
  },
  {
   "property": "C131",
   "status": "partial",
   "theorems": [
    "Osip.c131_found",
    "Osip.c131_no_name",
    "Osip.c131_agrees",
    "Osip.c131_added",
    "Osip.c131_set_partial",
    "Osip.c131_kept",
    "Osip.c131_null",
    "Osip.c131_violated"
   ],
   "note": "Looking up is proved for all lists of named parameters. What is added is found if the name was not there (c131_set_partial). False if it was (c131_kept, c131_violated): osip_to_set_tag on a header with a tag leaves the old tag to be found, for every list. A null name, as a failed osip_strdup in osip_from_set_tag gives it, is accepted, and the next search reads it (c131_null)."
  },
  {
   "property": "C132",
   "status": "partial",
   "theorems": [
    "Osip.c132_exact_partial",
    "Osip.c132_wraps",
    "Osip.c132_negative",
    "Osip.c132_alias",
    "Osip.c132_no_number",
    "Osip.c132_via",
    "Osip.c132_body",
    "Osip.c132_violated"
   ],
   "note": "Numbers that fit an int are read exactly (c132_exact_partial). That others are refused is false: the result of strtol is stored in an int before it is compared with LONG_MIN and LONG_MAX. c132_wraps and c132_negative say for every number what is read; c132_body and c132_via what this means for bodies and ports; c132_violated is a message with such a length, port and sequence number that is accepted."
  },
  {
   "property": "C133",
   "status": "partial",
   "theorems": [
    "Osip.c133_one_partial",
    "Osip.c133_several_partial",
    "Osip.c133_relayed_partial",
    "Osip.c133_violated"
   ],
   "note": "Proved for well-formed messages (WfMessage of C88) and bodies below a million bytes, without a condition on the boundary. False for a message without Content-Type and, for several sessions, without MIME-Version (c133_violated)."
  },
  {
   "property": "C134",
   "status": "partial",
   "theorems": [
    "Osip.c134_live",
    "Osip.c134_found_partial",
    "Osip.c134_response_partial",
    "Osip.c134_request_partial",
    "Osip.c134_locked_partial",
    "Osip.c134_violated",
    "Osip.c134_locked_violated"
   ],
   "note": "The tables hold live transactions only (c134_live), and a transaction is found whenever the lists have one (c134_found_partial). That it is the same one is proved where the branch is in use once, for the same method and sender, requests with magic-cookie branches (c134_response_partial, c134_request_partial). False otherwise (c134_violated): the tables compare the branch only, so that a response for another method and a request of another host reach a transaction that is not theirs; and a request without Via makes the failing creation read through a NULL Via. The table searched belongs to the list that is locked if the methods of the request line and CSeq agree (c134_locked_partial); otherwise a transaction of another list is found without its mutex (c134_locked_violated)."
  },
  {
   "property": "C135",
   "status": "proved",
   "theorems": [
    "Osip.c135_run",
    "Osip.c135_unique",
    "Osip.c135_copy"
   ],
   "note": "c135_run: between any two states of its life, the lists of a stack with tables go from one to the other by operations of stacks without tables; c135_unique: ids; c135_copy: copies of requests. Which transaction receives the copy is the subject of C134: it need not be the one of the request if two have its branch."
  },
  {
   "property": "C136",
   "status": "proved",
   "theorems": [
    "Osip.c136_same",
    "Osip.c136_fragment"
   ],
   "note": "c136_fragment: the same for osip_message_parse_sipfrag. The functions replaced by those of libc with MINISIZE (atoi, strcasecmp, strncasecmp) are taken to do the same on what is handed to them; see Parse/Mini.lean."
  },
  {
   "property": "C137",
   "status": "proved",
   "theorems": [
    "Osip.c137_same_run"
   ],
   "note": "atoi, strcasecmp and strncasecmp of libc are taken to do what the library does itself when compiled without MINISIZE; see Parse/Mini.lean."
  },
  {
   "property": "C138",
   "status": "proved",
   "theorems": [
    "Osip.c138_message",
    "Osip.c138_fragment",
    "Osip.c138_mini",
    "Osip.c138_stack"
   ],
   "note": "tolower is taken to leave bytes above 127 as they are, also as negative numbers (glibc); ISO C leaves this open."
  },
  {
   "property": "C139",
   "status": "proved",
   "theorems": [
    "Osip.c139_sequence",
    "Osip.c139_target",
    "Osip.c139_identity",
    "Osip.c139_from_request",
    "Osip.c139_line",
    "Osip.c139_goes_down"
   ],
   "note": "c139_goes_down: the dialog does not refuse a lower sequence number, which RFC 3261 12.2.2 asks of the user agent."
  },
  {
   "property": "C14",
   "status": "proved",
   "theorems": [
    "Osip.c14_no_misuse",
    "Osip.c14_no_leak",
    "Osip.c14_freed_exactly_once"
   ],
   "note": "Every history of the four transaction types, freed at any point."
  },
  {
   "property": "C15",
   "status": "proved",
   "theorems": [
    "Osip.c15_send_failure",
    "Osip.c15_send_failure_server"
   ],
   "note": "Every event whose handler sends."
  },
  {
   "property": "C16",
   "status": "proved",
   "theorems": [
    "Osip.c16_terminates"
   ],
   "note": "Every waiting state reached with clock readings after the epoch."
  },
  {
   "property": "C17",
   "status": "proved",
   "theorems": [
    "Osip.c17_unique",
    "Osip.c17_remove",
    "Osip.c17_remove_absent",
    "Osip.c17_no_reuse"
   ],
   "note": "Every history of a stack."
  },
  {
   "property": "C18",
   "status": "proved",
   "theorems": [
    "Osip.c18_response_matching",
    "Osip.c18_found"
   ],
   "note": "Every client transaction and response; c18_found for every reachable stack."
  },
  {
   "property": "C19",
   "status": "proved",
   "theorems": [
    "Osip.c19_request_matching"
   ],
   "note": "Every server transaction and request with magic-cookie branches."
  },
  {
   "property": "C20",
   "status": "partial",
   "theorems": [
    "Osip.c20_retransmission_partial",
    "Osip.c20_rfc2543_partial",
    "Osip.c20_violated"
   ],
   "note": "Proved for requests with a magic-cookie branch, and for others once the transaction has executed the first copy. False for an RFC 2543 request repeated before that (witness c20_violated)."
  },
  {
   "property": "C21",
   "status": "proved",
   "theorems": [
    "Osip.c21_no_transaction",
    "Osip.c21_created"
   ],
   "note": "Every event and stack."
  },
  {
   "property": "C22",
   "status": "proved",
   "theorems": [
    "Osip.c22_dispatch"
   ],
   "note": "Every event and reachable stack."
  },
  {
   "property": "C23",
   "status": "partial",
   "theorems": [
    "Osip.c23_ack_partial",
    "Osip.c23_ack_of_valid_response",
    "Osip.c23_violated"
   ],
   "note": "From, Call-ID and CSeq number are taken from the response: the property is false for a response that did not copy them (witness c23_violated), true otherwise."
  },
  {
   "property": "C24",
   "status": "partial",
   "theorems": [
    "Osip.c24_sequential_partial",
    "Osip.c24_fifo_partial",
    "Osip.c24_returned_partial",
    "Osip.c24_exclusive_partial",
    "Osip.c24_progress_partial",
    "Osip.c24_violated"
   ],
   "note": "Every interleaving of any number of threads, under the assumption that osip_list_add finds memory: osip_fifo_add ignores its failure, which loses the element and hands NULL to a reader (witness c24_violated). c24_fifo_partial additionally excludes osip_fifo_insert; c24_sequential_partial does not."
  },
  {
   "property": "C25",
   "status": "proved",
   "theorems": [
    "Osip.c25_add",
    "Osip.c25_get",
    "Osip.c25_size",
    "Osip.c25_remove",
    "Osip.c25_free"
   ],
   "note": "Every list on every heap, every position, memory available or not; lists shorter than INT_MAX. Positions below -1 insert at index 1 or, in an empty list, at its end (insertAt)."
  },
  {
   "property": "C26",
   "status": "proved",
   "theorems": [
    "Osip.c26_walk"
   ],
   "note": "Every list on every heap and every choice of the removed elements."
  },
  {
   "property": "C27",
   "status": "partial",
   "theorems": [
    "Osip.c27_add_exact_partial",
    "Osip.c27_add_long",
    "Osip.c27_violated"
   ],
   "note": "Exact for delays below 1000 s. For longer delays the property is false (witness c27_violated); c27_add_long says by how much."
  },
  {
   "property": "C28",
   "status": "partial",
   "theorems": [
    "Osip.c28_gettimeout_partial",
    "Osip.c28_violated"
   ],
   "note": "The sleep suggested is the time to the next deadline of a running timer. False when events are pending on transactions other than INVITE client ones (witness c28_violated)."
  },
  {
   "property": "C29",
   "status": "proved",
   "theorems": [
    "Osip.c29_need_timer",
    "Osip.c29_tick"
   ],
   "note": "Every transaction state, deadline and clock reading."
  },
  {
   "property": "C30",
   "status": "partial",
   "theorems": [
    "Osip.c30_ack_partial",
    "Osip.c30_ack_identifiers",
    "Osip.c30_dialog",
    "Osip.c30_schedule",
    "Osip.c30_schedule_ack",
    "Osip.c30_execute",
    "Osip.c30_violated"
   ],
   "note": "Schedule, bound and removal by dialog proved. That an ACK removes only entries of its own dialog is false, as the To tag is not compared (witness c30_violated); proved for the other identifiers."
  },
  {
   "property": "C31",
   "status": "proved",
   "theorems": [
    "Osip.c31_get_destination",
    "Osip.c31_server_sends"
   ],
   "note": "Every response and every history of a server transaction."
  },
  {
   "property": "C32",
   "status": "proved",
   "theorems": [
    "Osip.c32_new_transaction",
    "Osip.c32_client_sends"
   ],
   "note": "Every request and every history of a client transaction."
  },
  {
   "property": "C33",
   "status": "partial",
   "theorems": [
    "Osip.c33_caller",
    "Osip.c33_callee_partial",
    "Osip.c33_update",
    "Osip.c33_fixed",
    "Osip.c33_violated"
   ],
   "note": "Caller's side and updates proved. The callee's route set is taken from the response, not from the request (witness c33_violated); proved when the response repeats the Record-Route headers of the request."
  },
  {
   "property": "C34",
   "status": "proved",
   "theorems": [
    "Osip.c34_update",
    "Osip.c34_never_changes"
   ],
   "note": "Every dialog and every sequence of updates."
  },
  {
   "property": "C35",
   "status": "partial",
   "theorems": [
    "Osip.c35_match_partial",
    "Osip.c35_no_tag",
    "Osip.c35_untagged",
    "Osip.c35_violated",
    "Osip.c35_null_dereference"
   ],
   "note": "Call-ID and From tag are compared; the To tag is not (witness c35_violated)."
  },
  {
   "property": "C36",
   "status": "proved",
   "theorems": [
    "Osip.c36_match",
    "Osip.c36_no_tag",
    "Osip.c36_untagged",
    "Osip.c36_null_dereference"
   ],
   "note": "Every dialog and response whose tag parameters have values; a tag without value is a NULL dereference (witness c36_null_dereference)."
  },
  {
   "property": "C37",
   "status": "proved",
   "theorems": [
    "Osip.c37_escape",
    "Osip.c37_escape_any"
   ],
   "note": "Every byte string shorter than 700000000 bytes (the int index), every contents of fresh memory."
  },
  {
   "property": "C38",
   "status": "proved",
   "theorems": [
    "Osip.c38_unescape"
   ],
   "note": "Every string, any bytes after its terminator, any results of sscanf."
  },
  {
   "property": "C39",
   "status": "proved",
   "theorems": [
    "Osip.c39_clrspace"
   ],
   "note": "Every string, any bytes after its terminator."
  },
  {
   "property": "C40",
   "status": "proved",
   "theorems": [
    "Osip.c40_clrncpy"
   ],
   "note": "Every string, every length up to the string's, every destination of at least len+1 bytes."
  },
  {
   "property": "C41",
   "status": "proved",
   "theorems": [
    "Osip.c41_quote_find"
   ],
   "note": "Every string, any bytes after its terminator."
  },
  {
   "property": "C42",
   "status": "proved",
   "theorems": [
    "Osip.c42_enquote",
    "Osip.c42_dequote"
   ],
   "note": "Every string, any bytes after its terminator."
  },
  {
   "property": "C43",
   "status": "partial",
   "theorems": [
    "Osip.c43_without_quote_partial",
    "Osip.c43_violated"
   ],
   "note": "Every string except a lone double quote, for which the function writes before its block (witness c43_violated)."
  },
  {
   "property": "C44",
   "status": "proved",
   "theorems": [
    "Osip.c44_header_lookup",
    "Osip.c44_no_clash"
   ],
   "note": "Every string as a name, char signed or unsigned, with and without MINISIZE."
  },
  {
   "property": "C45",
   "status": "partial",
   "theorems": [
    "Osip.c45_unfolding_partial",
    "Osip.c45_body_untouched_partial",
    "Osip.c45_violated",
    "Osip.c45_body_violated"
   ],
   "note": "Every string without empty continuation lines. Empty continuation lines (white space after a line end, directly followed by a line end or the end) break the claim: reads behind the string (c45_violated), body altered (c45_body_violated). A continuation starting in the last three characters is not joined."
  },
  {
   "property": "C46",
   "status": "partial",
   "theorems": [
    "Osip.c46_split_partial",
    "Osip.c46_single",
    "Osip.c46_in_bounds",
    "Osip.c46_violated",
    "Osip.c46_scheme_violated"
   ],
   "note": "Splitting is exact for values whose quoted strings have no escaped quotes and whose brackets enclose URIs of the five recognised schemes; memory safety for every value. Escaped quotes and other schemes break the claim (witnesses)."
  },
  {
   "property": "C47",
   "status": "partial",
   "theorems": [
    "Osip.c47_content_length_partial",
    "Osip.c47_violated"
   ],
   "note": "Violated for bodies of 10^6 bytes and more: the right aligned number overwrites the colon. Proved for all smaller bodies of messages whose single-valued headers can be written."
  },
  {
   "property": "C48",
   "status": "proved",
   "theorems": [
    "Osip.c48_request_round_trip",
    "Osip.c48_response_round_trip",
    "Osip.c48_request_sip"
   ],
   "note": "Request lines: method not empty, without space, not starting with SIP/; the text of the URI has no white space and the URI parser accepts it (c48_request_sip: the URIs of C52). Status lines: codes 100 to 699, any reason phrase without line end. sscanf %d is used through an assumption on three digit numbers, which sscanfD1_ok shows to be satisfiable."
  },
  {
   "property": "C49",
   "status": "proved",
   "theorems": [
    "Osip.c49_cseq_parse",
    "Osip.c49_cseq_round_trip",
    "Osip.c49_call_id_parse",
    "Osip.c49_call_id_round_trip"
   ],
   "note": "The parse theorems give the result for every string, the round trips follow for parts without separator and outer blanks."
  },
  {
   "property": "C50",
   "status": "partial",
   "theorems": [
    "Osip.c50_via_round_trip_partial",
    "Osip.c50_violated",
    "Osip.c50_paren_violated"
   ],
   "note": "Every header whose parts are without the separators of the parser. Missing because false: comments with a semicolon when there are no parameters, and parentheses in quoted parameter values (witnesses)."
  },
  {
   "property": "C51",
   "status": "partial",
   "theorems": [
    "Osip.c51_via_in_bounds_partial",
    "Osip.c51_violated"
   ],
   "note": "Every string except those ending with one space directly after the second slash; for all of those the code reads behind the terminator (c51_violated)."
  },
  {
   "property": "C52",
   "status": "partial",
   "theorems": [
    "Osip.c52_uri_round_trip_partial",
    "Osip.c52_other_round_trip",
    "Osip.c52_violated",
    "Osip.c52_separators_violated"
   ],
   "note": "User and password are any non-empty byte strings, parameters and headers any byte strings without outer blanks. Missing because false (c52_violated): values with outer blanks, the parameters x-obr and x-obp, empty passwords. Hosts and ports are any strings that are not empty, without outer blanks and without the separators of the parser (an @ only after a user name; a closing bracket only in a host with a colon); for each kind left out it is false (c52_separators_violated). sscanf is assumed to read two hexadecimal digits."
  },
  {
   "property": "C53",
   "status": "partial",
   "theorems": [
    "Osip.c53_from_round_trip_partial",
    "Osip.c53_contact_round_trip_partial",
    "Osip.c53_addr_spec",
    "Osip.c53_contact_star",
    "Osip.c53_violated",
    "Osip.c53_separators_violated"
   ],
   "note": "Proved for headers with a SIP URI whose text has 6 or more characters, whose host and port have no '>', and with a display name that is a quoted string or words of the allowed characters. c53_violated: a URI text below 6 characters is rejected, a Contact display name that starts with a star is lost, blanks before a display name cut off its end. c53_separators_violated: each kind of host, port, display name and parameter outside the conditions is not read back."
  },
  {
   "property": "C54",
   "status": "partial",
   "theorems": [
    "Osip.c54_violated",
    "Osip.c54_in_bounds_partial"
   ],
   "note": "Violated: two boundaries with less than two characters between them, or two of which the second is CR, give a negative length. All other bodies are handled in bounds."
  },
  {
   "property": "C55",
   "status": "partial",
   "theorems": [
    "Osip.c55_error_partial",
    "Osip.c55_violated"
   ],
   "note": "Violated for headers held by a pointer (Content-Type with a parameter without value): the code of strcat_simple_header is overwritten. Proved for start line, repeated headers, other headers and bodies."
  },
  {
   "property": "C56",
   "status": "proved",
   "theorems": [
    "Osip.c56_request",
    "Osip.c56_untouched"
   ],
   "note": "For an address without blanks around it and ports below 65536 (the port is printed into a buffer of 10 bytes). Allocations succeed."
  },
  {
   "property": "C57",
   "status": "proved",
   "theorems": [
    "Osip.c57_strcasecmp",
    "Osip.c57_strncasecmp",
    "Osip.c57_tolower"
   ],
   "note": "Every pair of strings, any bytes after the terminators. The loops are those of the VxWorks/pSOS build; other builds call libc."
  },
  {
   "property": "C58",
   "status": "proved",
   "theorems": [
    "Osip.Md5.c58_chunks"
   ],
   "note": "For pieces shorter than 2^32 - 63 bytes; for longer ones i + 63 wraps around in the loop of osip_MD5Update."
  },
  {
   "property": "C59",
   "status": "partial",
   "theorems": [
    "Osip.Setup.c59_setup_partial",
    "Osip.Setup.c59_violated"
   ],
   "note": "Every request and every pattern of failing allocations except those of list nodes: a failing set-up frees everything exactly once. The property is false if the node of a copied parameter cannot be allocated and the set-up fails later: the parameter is lost (c59_violated). __osip_ict_init alone leaves a dangling pointer for a request without Via; c59_setup_partial covers that osip_transaction_init never gets there. A client transaction is given a request URI (otherwise NULL is dereferenced)."
  },
  {
   "property": "C60",
   "status": "partial",
   "theorems": [
    "Osip.c60_copy",
    "Osip.c60_clone_partial",
    "Osip.c60_violated"
   ],
   "note": "A message is copied exactly if its parts are complete, and then the copy is equal; what can be written can be copied and the copy is written as the same bytes. The property is false for a message whose kept text has a NUL before its last byte (c60_violated): the clone keeps the length but only the bytes up to the NUL, so that writing the clone reads behind the block. Allocation succeeds; sharing of memory between copy and original is C112, failing allocations are C119."
  },
  {
   "property": "C61",
   "status": "proved",
   "theorems": [
    "Osip.c61_no_null_dereference"
   ],
   "note": "Every history of the four transaction types."
  },
  {
   "property": "C62",
   "status": "partial",
   "theorems": [
    "Osip.c62_lookup_partial",
    "Osip.c62_step_partial",
    "Osip.c62_violated"
   ],
   "note": "Proved for messages whose CSeq has a method and, for an ACK, with a To header. False for an ACK without To header (witness c62_violated)."
  },
  {
   "property": "C63",
   "status": "proved",
   "theorems": [
    "Osip.c63_caller",
    "Osip.c63_callee",
    "Osip.c63_recognises"
   ],
   "note": "Every request and response for which the set-up succeeds."
  },
  {
   "property": "C64",
   "status": "proved",
   "theorems": [
    "Osip.c64_callback_type"
   ],
   "note": "Every history of all four kinds."
  },
  {
   "property": "C65",
   "status": "proved",
   "theorems": [
    "Osip.c65_wait"
   ],
   "note": "Every history of all four kinds; exact to the microsecond for normal clock readings."
  },
  {
   "property": "C66",
   "status": "partial",
   "theorems": [
    "Osip.c66_clone_partial",
    "Osip.ListEx.c66_violated"
   ],
   "note": "Proved when the allocation of list nodes succeeds; a failed one is ignored and loses the element while success is returned (witness c66_violated)."
  },
  {
   "property": "C67",
   "status": "proved",
   "theorems": [
    "Osip.c67_request_matching"
   ],
   "note": "Every server transaction, every request carrying the compared headers."
  },
  {
   "property": "C68",
   "status": "proved",
   "theorems": [
    "Osip.c68_strcasestr"
   ],
   "note": "Every pair of strings."
  },
  {
   "property": "C69",
   "status": "proved",
   "theorems": [
    "Osip.c69_invalid_headers"
   ],
   "note": "Every name, every return code of the parsers."
  },
  {
   "property": "C70",
   "status": "partial",
   "theorems": [
    "Osip.c70_next_crlf",
    "Osip.c70_next_crlfcrlf_partial",
    "Osip.c70_no_blank_line_partial",
    "Osip.c70_violated"
   ],
   "note": "__osip_find_next_crlf: every string. __osip_find_next_crlfcrlf: every string without continued lines before the blank line; on a continued line it reads a null pointer (c70_violated)."
  },
  {
   "property": "C71",
   "status": "proved",
   "theorems": [
    "Osip.c71_params_parse",
    "Osip.c71_params_round_trip",
    "Osip.c71_params_in_bounds",
    "Osip.c71_violated"
   ],
   "note": "WfParam covers more than the RFC grammar; c71_violated shows that a value starting with a comma (no RFC token) is lost."
  },
  {
   "property": "C72",
   "status": "proved",
   "theorems": [
    "Osip.c72_uri_in_bounds"
   ],
   "note": "For every string and every behaviour of sscanf. Allocations succeed."
  },
  {
   "property": "C73",
   "status": "proved",
   "theorems": [
    "Osip.c73_from_in_bounds",
    "Osip.c73_contact_in_bounds"
   ],
   "note": "For every string and every behaviour of sscanf. Allocations succeed."
  },
  {
   "property": "C74",
   "status": "proved",
   "theorems": [
    "Osip.c74_start_line"
   ],
   "note": "For every behaviour of sscanf. Allocations succeed."
  },
  {
   "property": "C75",
   "status": "proved",
   "theorems": [
    "Osip.c75_headers_read",
    "Osip.c75_headers_accepted"
   ],
   "note": "For every setter that is defined on terminated strings. Allocations succeed."
  },
  {
   "property": "C76",
   "status": "proved",
   "theorems": [
    "Osip.Md5.c76_md5_is_rfc1321"
   ],
   "note": "The specification is written from RFC 1321, the table from the sine. Pieces shorter than 2^32 - 63 bytes."
  },
  {
   "property": "C77",
   "status": "partial",
   "theorems": [
    "Osip.c77_content_type_round_trip_partial",
    "Osip.c77_accept_round_trip_partial",
    "Osip.c77_in_bounds",
    "Osip.c77_violated"
   ],
   "note": "The round trip holds if every parameter has a value. c77_violated: text/plain;foo is read and cannot be written. Allocations succeed."
  },
  {
   "property": "C78",
   "status": "proved",
   "theorems": [
    "Osip.c78_accept_encoding_round_trip",
    "Osip.c78_call_info_round_trip",
    "Osip.c78_in_bounds"
   ],
   "note": "Allocations succeed."
  },
  {
   "property": "C79",
   "status": "proved",
   "theorems": [
    "Osip.c79_value_round_trip",
    "Osip.c79_header"
   ],
   "note": "Allocations succeed."
  },
  {
   "property": "C80",
   "status": "proved",
   "theorems": [
    "Osip.c80_www_authenticate",
    "Osip.c80_authorization",
    "Osip.c80_authentication_info",
    "Osip.c80_www_authenticate_round_trip",
    "Osip.c80_authorization_round_trip",
    "Osip.c80_to_str_in_bounds"
   ],
   "note": "Allocations succeed. See C83 for the directives outside the quantifier."
  },
  {
   "property": "C81",
   "status": "partial",
   "theorems": [
    "Osip.c81_violated",
    "Osip.c81_authentication_info_round_trip_partial"
   ],
   "note": "Violated: the block is one byte too small exactly if nextnonce and opaque are both set, or if a scheme and no field is set; otherwise the text is written and reads back."
  },
  {
   "property": "C82",
   "status": "proved",
   "theorems": [
    "Osip.c82_auth_in_bounds"
   ],
   "note": "Allocations succeed."
  },
  {
   "property": "C83",
   "status": "partial",
   "theorems": [
    "Osip.c83_unknown_partial",
    "Osip.c83_violated"
   ],
   "note": "Holds for names that do not extend the name of a token field; c83_violated gives the directives that are mixed up or lost."
  },
  {
   "property": "C84",
   "status": "proved",
   "theorems": [
    "Osip.c84_part",
    "Osip.c84_multipart",
    "Osip.c84_plain"
   ],
   "note": "Allocations succeed; body shorter than 2^31 bytes. A part needs a header line and data."
  },
  {
   "property": "C85",
   "status": "proved",
   "theorems": [
    "Osip.c85_write",
    "Osip.c85_round_trip"
   ],
   "note": "Allocations succeed."
  },
  {
   "property": "C86",
   "status": "proved",
   "theorems": [
    "Osip.c86_text"
   ],
   "note": "Allocations succeed; body shorter than 2^31 bytes."
  },
  {
   "property": "C87",
   "status": "partial",
   "theorems": [
    "Osip.c87_in_bounds_partial",
    "Osip.c87_violated"
   ],
   "note": "Violated by a boundary of one quotation mark, an Accept with a subtype but no type, and by Authentication-Info headers as in C81. Proved for every other message whose URIs consist of bytes and whose URI headers have values."
  },
  {
   "property": "C88",
   "status": "partial",
   "theorems": [
    "Osip.c88_message_round_trip_partial",
    "Osip.c88_violated"
   ],
   "note": "Violated by bodies without Content-Type, several bodies without boundary and by values with commas of headers that are split. Proved for requests and responses with any number of well-formed headers of all 24 kinds, other headers with lower case names, and no body, a plain body or a multipart body."
  },
  {
   "property": "C89",
   "status": "partial",
   "theorems": [
    "Osip.c89_in_bounds_partial",
    "Osip.c89_in_bounds_no_boundary_partial",
    "Osip.c89_violated"
   ],
   "note": "Violated: bytes which end with a continued line (replace_all_lws passes the terminator), and two multipart boundaries without room between them (copy of negative length); witnesses for the whole parser. Proved for all other bytes: the whole of osip_message_parse (skipping, unfolding, start line, splitting, all header parsers and setters, bodies) has a defined outcome."
  },
  {
   "property": "C90",
   "status": "proved",
   "theorems": [
    "Osip.c90_read_message",
    "Osip.c90_read_copied",
    "Osip.c90_second_refused"
   ],
   "note": "For every byte string for which the model of osip_message_parse gives success."
  },
  {
   "property": "C91",
   "status": "proved",
   "theorems": [
    "Osip.c91_division",
    "Osip.c91_body",
    "Osip.c91_line_ends",
    "Osip.c91_refused"
   ],
   "note": "Folded lines are C45. c91_body also says when there is no body although there are bytes: without Content-Type, and behind an empty line made of a single CR without Content-Length. Multipart bodies: c91_line_ends and C84."
  },
  {
   "property": "C92",
   "status": "partial",
   "theorems": [
    "Osip.Sdp.c92_in_bounds_partial",
    "Osip.Sdp.c92_violated"
   ],
   "note": "Violated: for a text that ends with a media line without payloads and with one byte of line end, the search for payloads starts behind the terminator (theorem c92_violated has a witness). Proved for every other text."
  },
  {
   "property": "C93",
   "status": "proved",
   "theorems": [
    "Osip.Sdp.c93_stored"
   ],
   "note": "For every text for which the model of sdp_message_parse gives success."
  },
  {
   "property": "C94",
   "status": "proved",
   "theorems": [
    "Osip.Sdp.c94_written",
    "Osip.Sdp.c94_null"
   ],
   "note": "For every session of the model; sizes are natural numbers, the code uses int."
  },
  {
   "property": "C95",
   "status": "proved",
   "theorems": [
    "Osip.Sdp.c95_read_back",
    "Osip.Sdp.c95_session"
   ],
   "note": "For every text that is read with success, and for every session with complete lines."
  },
  {
   "property": "C96",
   "status": "partial",
   "theorems": [
    "Osip.Sdp.c96_copied",
    "Osip.Sdp.c96_read_copied",
    "Osip.Sdp.c96_violated",
    "Osip.Sdp.c96_dangling"
   ],
   "note": "Violated: the copy can be different (c96_violated), and after an error the caller holds a freed pointer (c96_dangling). Proved: a session gets an equal copy exactly if it could have been read, in particular every session that was read."
  },
  {
   "property": "C97",
   "status": "partial",
   "theorems": [
    "Osip.Sdp.c97_add_partial",
    "Osip.Sdp.c97_found",
    "Osip.Sdp.c97_info",
    "Osip.Sdp.c97_parts",
    "Osip.Sdp.c97_key",
    "Osip.Sdp.c97_violated",
    "Osip.Sdp.c97_null"
   ],
   "note": "Violated: indices below -1 pass the test and a null media is used, INT_MAX overflows (c97_violated), and the functions for media do not test for a null session (c97_null). Proved for all other indices and sessions."
  },
  {
   "property": "C98",
   "status": "partial",
   "theorems": [
    "Osip.Sdp.c98_by_name",
    "Osip.Sdp.c98_at_index",
    "Osip.Sdp.c98_payload",
    "Osip.Sdp.c98_violated",
    "Osip.Sdp.c98_hangs"
   ],
   "note": "Violated for sdp_message_a_attribute_del_at_index in a media: index 0 removes all attributes (c98_violated), another index does not return (c98_hangs). Proved for the deletion by name, by index in the session, and of payloads."
  },
  {
   "property": "C99",
   "status": "partial",
   "theorems": [
    "Osip.c99_current_partial",
    "Osip.c99_violated"
   ],
   "note": "Violated: osip_message_set_status_code and the other macros for the start line keep the old text, and a text written for a fragment is given to the next caller (c99_violated). Proved for all sequences of calls that do not change the start line after writing, or force an update."
  }
 ]
}