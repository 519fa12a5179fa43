# Formal model of oSIP (aurelihein/osip) in Lean 4

## Trusted base

* Lean 4.33.0's kernel.
* Axioms: theorems may depend on `propext`, `Classical.choice`, `Quot.sound` only
  (Lean's standard three). No own axioms, no `sorry`, no `native_decide`/`bv_decide`.
* The hand translation of the C text into the definitions of `lean/Verif/**/Model*.lean`.
  Every definition cites the file and lines it translates and says what is simplified.
  The translation itself is not machine checked: this is the main thing a reader must audit.
* The specifications (`Spec` definitions), which say in Lean what the English property says.

Conventions of the model

* `none`/`.ub` results mean "C undefined behaviour (out-of-bounds access, null dereference)
  or a loop that does not end"; it is never assumed away: memory-safety theorems prove that it
  cannot occur, or a witness shows that it does occur.
* The application's send callback, the clock and `malloc` are oracles: theorems quantify over
  all their results (where allocation is modelled).
* Strings at byte level (`Verif/Str`): blocks with an index, an access outside the block is `none`.
  In the parsers (`Verif/Parse`) a pointer into a constant string is the list of bytes from it to the end of
  the block, and the copying functions are used through their contracts, which are theorems about the
  byte-level models (`Verif/Parse/Ptr.lean`).
* libc functions (`strchr`, `strlen`, `strncpy`, `tolower`, `sscanf`, `atoi`) are modelled by their C standard meaning.
* Build configuration: the default one (`OSIP_MT` on where the queue is concerned,
  `MINISIZE`, `USE_BLOCKINGSOCKET`, `FWDSUPPORT`, `HAVE_DICT_DICT_H` off, the last one on in Match/Dict.lean only,
  `MINISIZE` on in Parse/Mini.lean and Wire/Mini.lean; Parse/HeaderTable.lean has the tables of both).

## What is modelled / not modelled

Modelled (module -> code):

| module | code |
|---|---|
| `Verif/CList` | `osip_list.c` on a heap of linked nodes |
| `Verif/Fifo` | `port_fifo.c`, threads, mutex and semaphore |
| `Verif/Time`, `Verif/Timeout` | `osip_time.c` arithmetic, `osip_timers_gettimeout` |
| `Verif/Msg`, `Verif/Hdr` | message and header records, string form and comparison of the headers used for matching |
| `Verif/Fsm` | `fsm_misc.c`, `ict_fsm.c`, `nict_fsm.c`, `ist_fsm.c`, `nist_fsm.c`, `ict.c`, `nict.c`, `ist.c`, `nist.c`, `osip_transaction_execute`, `osip_transaction_free2` |
| `Verif/Dialog` | `osip_dialog.c` |
| `Verif/Ixt` | retained 2xx list of `osip.c` 119-280 |
| `Verif/Dest.lean` | `osip_response_get_destination` |
| `Verif/Match` | `osip_transaction.c` matching, `osip.c` lookup/creation/dispatch |
| `Verif/Str` | string helpers of `osip_port.c`, escaping of `osip_uri.c` |
| `Verif/Parse` | header parsers and serialisers, message start line, line handling, header table, header splitting, Content-Length, case-insensitive comparison |

Not modelled: sockets and threads themselves (`port_thread.c`, `port_condv.c`, `port_sema.c`
beyond the abstract counting semaphore), tracing, `random`, Windows/VxWorks variants.

## Plan per property

| id | model | proof |
|---|---|---|
| C01 | FSM tables + `osip_transaction_execute` | case analysis over state x event; history by induction |
| C02 | runs of a transaction producing an effect trace | invariant by induction over the run |
| C03 | FSM step vs. independent RFC arrow relation | case analysis for all send results |
| C04-C06 | ICT runs | invariants by induction |
| C07, C08, C11 | ICT/NICT/IST timers | induction on number of retransmissions |
| C09 | client runs | invariant; the ACK-construction failure path is a counterexample for ICT (negation proved), positive `_partial` |
| C10, C12, C13 | IST/NIST runs | invariants |
| C14 | runs with message identities, `free` effects | ownership invariant: live = held by transaction or queued |
| C15 | FSM step | case analysis |
| C16 | FSM + timers | reachable-state invariant "the terminating timer is armed"; the timer loop tries terminating timers first, so one tick after the deadline suffices |
| C17 | stack state with id counter | invariant by induction over operations |
| C18, C19 | matching functions on abstract Via/CSeq records | iff with RFC predicate |
| C20 | stack model | every creation is remembered (`CreatedBy`), the creating request matches; violated for requests without magic cookie repeated before the first copy is executed: negation and two `_partial` |
| C21, C22 | stack model | case analysis, position of the changed entry |
| C23 | `ict_create_ack` on abstract headers | decision logic; From, Call-ID and CSeq number come from the response: negation and `_partial` |
| C24 | labelled transition system of threads, one step per statement, mutex and semaphore explicit; elements of the list are numbers | invariant by induction over interleavings; `osip_fifo_add` ignores a failed `osip_list_add`, hence `_partial` (memory available) and the witness `c24_violated` |
| C25, C26 | heap of nodes; `malloc` is an oracle; a node not owned by the list stays unchanged | representation predicate `Owns`, refinement to `List` |
| C67 | RFC 2543 part of the request matching | equivalence with an independent description of equal headers; added after a seeded bug in it survived |
| C66 | `osip_list_clone` on the same heap | induction over the source; `_partial`: node allocation succeeds, witness otherwise |
| C27 | `add_gettimeofday` | arithmetic; negation for delays >= 1000000 ms, `_partial` below |
| C28 | `osip_timers_gettimeout` | minimum over lists of timers; pending events of NICT/IST/NIST are ignored by the code: negation and `_partial` |
| C29 | `need_timer_x` | arithmetic |
| C30 | ixt list | invariants by induction; matching an ACK ignores the To tag: negation and `_partial` |
| C31, C32 | destination selection | decision logic |
| C33-C36 | dialog functions | decision logic / histories; C33 is violated on the callee's side (route set taken from the response) and C35 too (To tag is not compared): negation and `_partial` |
| C37, C38 | escape/unescape on bytes and on buffers with bounds | round trip by induction |
| C39-C43 | index-level string functions with out-of-bounds outcome | loop invariants; C43 violated: negation and `_partial` |
| C44 | header table and hash | table lookup lemma + evaluation of the fixed 33-entry table |
| C45 | unfolding pass (`Verif/Parse/Lines.lean`) | position-wise specification, induction over the string; violated for empty continuation lines: witnesses and `_partial` |
| C46 | splitting loop (`Verif/Parse/Multi.lean`) | grammar of values, induction over it; violated for escaped quotes and unrecognised schemes: negation and `_partial`; memory safety for all values |
| C68 | `osip_strcasestr` | first-occurrence specification, induction |
| C69 | `osip_message_set__header`, `__osip_message_call_method` | decision table |
| C70 | line-end searches | line decomposition, induction; null pointer read on continued lines: negation and `_partial` |
| C47 | `Verif/Parse/ToStr.lean`: Content-Length patching in `_osip_message_to_str` | from the exact text (C86) and arithmetic on decimal width; violated for bodies >= 10^6 bytes |
| C48, C74 | `Verif/Parse/Start.lean`: parser and serialiser of start lines; `sscanf ("%d")` abstract | round trip; shape of every accepted line |
| C53 | pointer-level parser and serialiser of From, To, Route, Record-Route and Contact | round trip on top of the one of C52; three violations with witnesses |
| C52 | `osip_uri_parse`, `osip_uri_to_str` (`Verif/Parse/Uri.lean`) with the escaping of C37 | escaped text avoids the separators, then round trip step by step; violated for some values: negation and `_partial` |
| C72 | pointer-level `osip_uri_parse` | result independent of all bytes after the terminator |
| C73 | pointer-level `osip_from_parse`, `osip_contact_parse` | defined on every string, on top of C71 and C72 |
| C49 | CSeq and Call-ID parser and serialiser | result of the parser for every string, round trip from it |
| C50 | `osip_via_parse`, `osip_via_to_str` (`Verif/Parse/Via.lean`) | round trip step by step; violated for some comments and quoted parentheses: negation and `_partial` |
| C51 | pointer-level `osip_via_parse` | result independent of all bytes after the terminator; violated: negation and `_partial` |
| C71 | `__osip_generic_param_parseall` (`Verif/Parse/Params.lean`) | induction over the parameters; bounds by induction over the string |
| C54 | `Verif/Parse/Body.lean`: msg_osip_body_parse, `__osip_find_next_occurence`, osip_body.c; `memcpy` with a negative length is undefined | violated: all short gaps between the first two boundaries (`c54_violated`); totality on every other body (`c54_in_bounds_partial`) |
| C55 | `Verif/Parse/ToStr.lean`: control flow of `_osip_message_to_str` | inversion of a successful run; violated for headers held by pointers: concrete witness |
| C56 | `osip_message_fix_last_via_header` | decision logic |
| C75 | `msg_headers_parse` with an arbitrary setter | grammar of header parts, induction over it; every accepted string is in the grammar |
| C57 | comparison loops | induction |
| C58, C76 | `Verif/Md5/Model.lean`: all of osip_md5c.c on bit vectors, unsigned wrap-around included | the 64 lines equal the steps of RFC 1321, then invariant of the context over the pieces |
| C77, C78, C79 | `Verif/Parse/Media.lean`: osip_content_type.c, osip_accept.c, osip_accept_encoding.c, osip_call_info.c, osip_content_length.c, osip_header.c (set, to_str) | round trip through the parameter theorems of C71; totality over all strings; C77 is violated by a parameter without value |
| C80, C81, C82, C83 | `Verif/Parse/Auth.lean`: osip_www_authenticate.c, osip_authorization.c, osip_authentication_info.c (parse, to_str); the fields are a function from the directive name, the repeated code per field a table | specification by lists of directives; round trip by writing them in table order; exact condition of the overflow of osip_authentication_info_to_str; totality by a measure that shrinks each round |
| C84, C85 | `Verif/Parse/Body.lean`: osip_body.c (parse, parse_mime, to_str) and msg_osip_body_parse | grammar of parts (`IsPart`, `IsParts`) read back exactly, by induction on the parts; the text written is such a part |
| C86 | `Verif/Parse/Message.lean` (structure of a message), `Verif/Parse/ToStr.lean`: osip_message_to_str.c with the size of the block | exact text by induction over the table, headers and bodies |
| C87 | the same and all `…_to_str` functions | every function is total with room in its block for every structure, except for the listed violations |
| C88 | `osip_message_to_str` and `osip_message_parse` together | text = lines + blank line + body; unfolding leaves it unchanged, every line is handed to its setter (C44, C46, C75), every setter gives the header back (C48–C53, C77–C81), the body is split (C84) |
| C89 | whole of `osip_message_parse` (`Verif/Parse/Message.lean`) | violated for a continued line at the end and for boundaries next to each other (`c89_violated`); totality for all other bytes by an invariant (`Filled`) of the message under every setter, values handed over being trimmed (`Verif/Parse/PropsSafe.lean`) |
| C90 | `osip_message_parse` and `osip_message_clone` | every parser inverted (`…_complete` lemmas in `Verif/Parse/PropsRead.lean`), the invariant of C89 and C60 |
| C91 | `osip_message_parse` on texts given as start line, header lines, line end and body | `Verif/Parse/PropsWire.lean`: unfolding leaves such a text alone, C75 for the headers, all cases of the body, fuel of the loop over the parts |
| C92 | `sdp_message_parse` and the fifteen line parsers (`Verif/Sdp/Model.lean`), pointers as suffixes of the block, a read outside is `none` | every line parser has an outcome with a pointer in the text and further on (`PSpec`), parts and loops are composed (`Out3`); the media line at the end of the text is the one exception, with a concrete witness |
| C93 | the same functions | the same induction with the invariant that every stored member can stand in its line (`WfSession`) |
| C94 | `sdp_message_to_str`, the functions `sdp_append_*` and `__osip_sdp_append_string` with the size of the block | every part appends its text and leaves room for the terminator (`Res`), for complete lines; it returns the error otherwise |
| C95 | C93, C94 and `sdp_message_parse` | every line parser reads its own line and leaves the others alone (`Reads`, `Skips`), so the parts of `sdp_message_parse` rebuild the session member by member (`parse_text`) |
| C96 | `sdp_message_clone` | from C93 to C95; two violations with witnesses |
| C97 | the adding and reading accessors of `sdp_accessor.c` (`Verif/Sdp/Access.lean`), indices as integers, use of a null media or session is `none` | case analysis on the index, lists split at the index; the violations hold for every session |
| C98 | the deleting accessors; loops as turns, so that a loop without end is `running` for every number of turns | induction over the list; the violations hold for every media with attributes |
| C99 | the setting functions and macros with the kept text (`Parse/Edit.lean`), sequences of calls | invariant over the sequence: the kept text is absent, current or stale; witnesses for the stale ones |
| C100 | `osip_message_header_get_byname`, `osip_message_replace_header`, `osip_message_set_topheader` on the list of headers | induction over the rounds of the loop; witnesses for double headers, blanks in names and negative positions |
| C101 | the loop of `osip_*_execute` with an arbitrary function for what executing an event does (`Exec/Model.lean`) | invariant over the rounds: log ++ queue = given; variant for the end; witnesses for freeing and requeuing callbacks |
| C102 | any number of threads around one list and its mutex, interleaved statement by statement (`Exec/Threads.lean`); queues left out, they have a lock of their own | invariant over all reachable states (disjoint sets of listed, removed and freed transactions, who holds the mutex); schedules as witnesses |
| C103 | `osip_message_get_reason` with its six tables (`Misc/Reason.lean`) | the tables are compared with a list from the document; other numbers by going through the tables |
| C104 | `osip_compensatetime` and `osip_getsystemtime` as compiled for Android (`Misc/Clock.lean`), readings of the clocks as inputs, seconds only | invariant: at the last adjustment the clock was right; the failure holds for every later sequence of readings |
| C105 | the table of levels, `osip_trace` with the system log and its buffer of 512 bytes (`Misc/Trace.lean`); what the format gives is a string | induction over the calls; the two `snprintf` on the buffer, a negative size becomes a huge one |
| C106 | each function of `osip.c`, `osip_transaction.c` and `port_fifo.c` that takes mutexes as a program of lock, unlock, choice, loop and callback; any number of threads (`Exec/Locks.lean`); data and conditions are left out, so more runs are possible than in the code. Left out: `osip_fifo_get`, the public lock functions, destroying mutexes | programs are typed with the mutexes held before and after, in an order of ranks; typing gives the invariant. A run to the end by induction on the work left |
| C107 | a client transaction and the server transaction its request causes, each a `World` of C01-C16, and a network that delivers any message ever handed to the transport of the other side, any number of times, in any order or never (`Pair/Model.lean`). Left out: which transaction a message belongs to (C18-C21), and a second server transaction for a copy that arrives after the first was given back | what arrived at one side was sent by the other one (induction over the run), what a program is told arrived (induction over the transaction), and C13 |
| C108 | the same with an INVITE and its ACK | as C107 with C04, C10 and C12; the violation is a run |
| C109 | reading of C74, C75 and C90 and writing of C86; the lines of a text are a function of their own (`headLines`), with CR LF, CR and LF as line ends | no part of a message that was read has a CR or LF in it (`noEol_read`, one lemma for each parser) and every function that writes keeps this (`noEol_headerToStr`); the part of the start line needs the two blanks in the first line, the violation is a run |
| C110 | the condition variables of the Windows port, statement by statement, for any number of threads (`Cond/Model.lean`); mutexes and semaphores of the system are trusted to work and not to fail; the VxWorks variant in the same file does not compile and the one for pthreads only calls the system | invariant on who holds the two mutexes, counting of signals over a run, and for the return an explicit run to the end |
| C111 | `osip_uri_to_str_canonical` over the model of `osip_uri_to_str` and `__osip_uri_unescape` (`Verif/Parse/Uri.lean`). | `c111_text`: unescaping the written text gives back each component, piece by piece along the separators (none of them is a percent sign). `c111_same_partial`: without escapes the canonical text is the text, which is injective by the round trip of C52. `c111_violated`: injectivity, one line and reading back all fail once an escaped separator or line break is in a component. |
| C112 | The `_clone` and `_free` functions of all headers and of messages, `osip_list_clone`, `osip_list_special_free`, over a heap of blocks and an oracle which lets any allocation fail (`Verif/Copy`). A type is a table of its fields with what is done if `osip_strdup` fails; the functions are defined once for all tables. | By induction over the table, counting blocks: a copy adds exactly its blocks and the lost ones, giving back removes exactly the blocks. `c112_safe` for all oracles; `c112_no_leak_partial` if list nodes can be allocated; `c112_equal_partial`, `c112_equal_checked`. `c112_violated`: a lost element, a URI without host, credentials without realm. |
| C113 | The runs of `Fsm/Model.lean` (timer loops, queue, execution of events) with the readings of a clock that is never set back; `World.execPolled` lets the timer loop of another thread run in the middle of an execution (`Fsm/PropsSpacing.lean`) | invariant: only the oldest event can be a timeout and that timer is due, so the transaction does not change between queueing and execution; deadlines only move forward | partial: holds in one thread if the timer loop runs with no event waiting (INVITE clients: always), except for the first retransmission of an INVITE; three theorems with witnesses show the rest false |
| C114 | Both constructors of a dialog (`Dialog/Model.lean`) on the response as sent and as received (same From, To, Call-ID, CSeq, Record-Route and status; the rest may differ), then any updates of both ends; a request made inside a dialog is any message with the tags and the Call-ID of the dialog, because the library has no function that makes it (`Dialog/PropsPeers.lean`) | refinement between the two ends, then the matching theorems of C35 and C36 | partial: mirror and recognition hold; a request for one of two dialogs of the callee with different local tags is recognised by both (`c114_violated`) |
| C115 | `ict_create_ack` at the client, `osip_message_fix_last_via_header` on arrival and the lookup in the stack of the other end (`Fsm/Model.lean`, `Parse/FixVia.lean`, `Match/Model.lean`); a response is any message with the Via headers and CSeq of the request, because the library has no function that makes it (`Match/PropsWire.lean`) | composition: filling in the address keeps host, port and branch, then the matching theorems C18, C19, C67 | partial: the ACK of an RFC 2543 client from another source port is not recognised (`c115_violated`) |
| C116 | `osip_message_parse_sipfrag` (`Parse/Frag.lean`) beside `osip_message_parse`; writing with `sipfrag` was modelled before (`Parse/ToStr.lean`) | a start line that is refused leaves method, URI and reason empty, the headers are then read from the start of the text; the rest as for C74, C75, C88, C89 and C91 (`Parse/PropsFrag.lean`) | partial: a header whose text ends like a request line makes the fragment a request (witness); bodies in the round trip only with a start line |
| C117 | `osip_parse`, and the program that hands its result to `osip_message_fix_last_via_header`, `osip_find_transaction_and_add_event` and `osip_create_transaction` (`Wire/Model.lean`). `SipMessage.view` gives the members of the parsed structure which the transaction and dialog layers use, so the two models of `osip_message_t` are tied together | composition of C88-C90 (reading), C62, C61 (dispatching, executing), C20, C114, C115; the counter of transaction ids grows by at most one per operation (`Wire/Props.lean`, `Wire/Examples.lean`) | partial: an INVITE without branch and an ACK without To crash the program (`c117_violated`); bytes of `c89_violated` |
| C118 | Verif/Own: `Lang` is a small language of memory operations (allocate, give back, store in a structure, test against NULL, call) with an execution for every sequence of choices; `Parse` is 80 functions of src/osipparser2 in it, in the order of the C code, where every condition on the text and every allocation is a choice. `c118_memory_partial` is proved by a checker (`Check`) that follows what is known of each variable, with contracts of the functions (`Contracts`) and the proof that the checker is right for all executions (`Sound`, `Run`). Simplified: offsets inside of blocks are not modelled (C04 and others do), a `_free` function is one step, elements and nodes of a list are one block. | Wrong for the functions of `unsafeFuns`, each with a witness (`c118_violated`). |
| C119 | Verif/Own/Stack.lean: 79 functions of both directories in the language of C118 (copies, dialogs, contexts, transactions, events, handlers, timers, retransmissions). `c119_memory_partial` for every function but those of `unsafeFuns`, `c119_made_partial` for the functions with a result, `c119_freed`, `c119_event_done_partial`, `c119_event_owner_partial` and `c119_taken` for who owns what afterwards; by the checker of C118 (`Table` has its consequences for any table of functions). Simplified: callbacks are left out and give nothing back, locking is left out, sources that are only read are no arguments. | Wrong for `unsafeFuns`: osip_release with pending retransmissions in any case, all functions that add to lists if the node of a list cannot be allocated (`c119_violated`); `c119_dangling` for __osip_ict_init. |
| C120 | Verif/Own/Sdp.lean: the functions of sdp_message.c and sdp_accessor.c that allocate, in the language of C118. `How` tells which texts sdp_message_parse gets: in the order of RFC 2327, any text into a new session, any text into a session that holds something. `c120_memory_partial` for every function but those of `unsafeFuns`, `c120_made_partial`, `c120_freed`, `c120_parse_partial` and `c120_given_partial` for who owns what afterwards; by the checker of C118. Simplified: accessors that only read are left out, the fields of a session that a function does not set are not looked at. | Wrong for `unsafeFuns`: texts alone make sdp_message_parse lose blocks (`c120_text_violated`), so do setters (`c120_set_violated`); `c120_dangling` for sdp_message_clone; in the other cases if osip_realloc or a node of a list fails (`c120_violated`). |
| C121 | nothing new is modelled: runs of a transaction (`Fsm/Model.lean`) and of a stack (`Match/Model.lean`) | Fsm/PropsLate.lean: no event of a timer waits before the state of the timer (`NotEarly`), in the state the deadline does not move back (`Staying`), so `c121_stays`; `c121_alive` follows the run of a server transaction to the operation at which it leaves the unanswered states. Match/PropsLate.lean: `Accompanies` relates a run of a stack to the run of one transaction in it; `c121_copy_partial` combines both with C20. `Gently` says how the program treats the transaction; not required: which messages come, how often events are executed, what happens to other transactions. `c121_violated`: after a 2xx the INVITE transaction is gone at once |
| C122 | Misc/Port.lean: `osip_strerror` with its table | Misc/PropsPort.lean: by the table for 0 … -59, by cases else |
| C123 | Misc/Port.lean: `osip_usleep` up to the delay handed to `select`; trusted: `select` waits that long (no signal) and refuses negative parts | Misc/PropsPort.lean: arithmetic; `c123_violated`: the part behind whole seconds is dropped |
| C124 | nothing new is modelled (as C121) | Match/PropsAbsorb.lean: `Accompanies` from the creation to now, `c121_stays` from the operation that entered COMPLETED, `c18_response_matching` for the copy; `c124_absorbed` from the table of transitions |
| C125 | nothing new is modelled | Fsm/PropsEnds.lean: the deadline set on entering a state (`enter_upper`) is not moved by any event but an ACK in CONFIRMED (`fixed_exec`, over the table of transitions); past it the timer loop ends the transaction (`ends_of_passed`). `c125_violated` by induction over the repeated ACKs |
| C126 | nothing new is modelled | Parse/PropsAlike.lean: `Alike` is the least equivalence of lists of lines with the three rules of the RFC. A line does to a message what its values do one by one (`values_fold`, `line_values`), each header reads and writes its own member only (`ActsOn`, `acts_line`), so steps of different headers commute (`acts_commute`); names of one kind have the same entry (`entries_alike`). `alike_of_order` sorts lines by swaps. |
| C127 | nothing new is modelled | Parse/PropsStable.lean: `read_stable` takes the loop over the parameters apart for every text in one line: name up to the first `;` or `=`, then a plain value, a quoted string with an end (`qtext_of`: up to the first quote after an even number of backslashes) or one without end (`Open`). So the result is `Stable`, and `stable_loop` reads it back. The parsers of the headers are inverted on top of that; Parse/PropsStableVia.lean does it for Via (`viaHost_inv`, `viaHostPort_inv`, and `parseall_clean`: every character of a parameter is one of the text). Parse/PropsStableUri.lean shows that a URI which was read is `WfUri` unless a part is empty or a separator stands in the wrong place (`uri_read`, on the inversions `uriUser_stored`, `uriTail_stored`, `uriPort_stored` and `uriHost_stored`), so C52 applies; Parse/PropsStableAddr.lean inverts the parser of the addresses (`from_read`) and writes them back (`from_back`). Parse/PropsStableAuth.lean shows by an invariant of the loop (`authLoop_read`) that a field which takes a quoted string holds one and a field which takes a token holds text without comma and blank ends, so C80 and C81 apply. |
| C128 | nothing new is modelled | Parse/PropsStableMessage.lean: `came_all` shows that every header of a message which was read came from one line without CR and LF (through `osip_message_set_multiple_header`), so C127 applies to each (`header_back`, `start_back`); what is written is in the form of C91 again, and `c91_division` reads it: header for header the same. `rest_of` says what reading the body changes (only Content-Length, Content-Type of MIME messages and the bodies). `MessagePlain` is about the message as it was stored. Parse/PropsUndivided.lean says for texts of any form whether they are divided at commas (`divides`), and `split_pieces` that a piece which was cut out is not divided again; so the other headers need no condition on commas. Several bodies: `c128_multipart_partial` under `BodyOk` (the conditions of C88 on the bodies), up to the capitals that are written in the names of part headers. False for several bodies without MIME-Version (`c128_multipart_violated`), for comments in Via (`c127_via_violated`), for empty parts and headers without a value (`c128_violated`). |
| C129 | `osip_call_id_match`, `osip_cseq_match`, `osip_from_tag_match`, `osip_via_match`, `osip_from_compare` (`Verif/Hdr.lean`, used by C35, C36 and C67) | Match/PropsCompare.lean: each comparison is an equivalence on complete headers (`Comparison`) and is characterised by the parts of the header. For Via, `via_to_str_agrees` connects the text of this model with the pointer-level one, so that the round trip of C50 makes the text determine the header. `osip_from_compare` violates it: witnesses are texts that are read by the parser. |
| C130 | the functions `osip_message_get_…` (`osip_message_get`, `osip_message_get_body`, `osip_message_get_one` in Parse/PropsOrder.lean; `osip_message_get_header` is in Parse/Edit.lean) | Parse/PropsOrder.lean: `Carries` says which values a line has (C46), `Lines` collects them for one kind. Each line changes only the place of its kind (`acts_line` of C126), and each value adds what the parser makes of it (`setter_adds`); the list of a kind is the values counted through. Reading the body changes only Content-Length (`rest_of` of C128). |
| C131 | `osip_uri_param_set`, `osip_uri_param_add`, `osip_uri_param_get_byname` on the blocks of the strings (`Parse/ParamList.lean`) | Parse/PropsParamList.lean: `HoldsParams` relates the blocks to the parameters as text. `c131_agrees` shows that the look-up which the rest of the model uses (`paramByName`) is that of the blocks. False for a name that is there already and for a null name (`c131_violated`, with the general statements `c131_kept` and `c131_null`). |
| C132 | `osip_atoi` with `strtol` (`Base.lean`), `osip_via_parse`, `msg_osip_body_parse`, `osip_response_get_destination`, `osip_dialog_update_osip_cseq_as_uas` | Parse/PropsNumber.lean: `Numeral` and `Reads` say digit by digit what a text means as a number, without the reader of the model. Exact for numbers that fit an `int`; for the others `c132_wraps` gives the value read, and the property is false (`c132_violated`). Assumes 64-bit `long` and 32-bit `int` with wrap-around conversion. |
| C133 | `sdp_message_to_str`, `osip_message_set_body`, `osip_message_set_body_mime`, `osip_message_to_str`, `osip_message_parse`, `osip_message_get_body`, `sdp_message_parse`, one after the other | Sdp/PropsTravel.lean: composition of C94/C95, C88, C84/C85 and C130; new is that the text of a session has no line that begins with a hyphen (`lined_session`), so no boundary can occur in it. |
| C134 | the parts of `__osip_add_*`, `__osip_remove_*_transaction`, `osip_transaction_init`, `osip_transaction_find` compiled with `HAVE_DICT_DICT_H` | Match/Dict.lean, the only place where the option is on; Match/PropsDict.lean: invariant over all histories that a table entry is in the list under its branch; the agreement of both searches by C18 and C19; witnesses for the disagreement. Trusted: the dict library, which is not in the repository, is a map with `dict_insert(…, FALSE)` keeping what is there. |
| C135 | as C134 | Match/PropsDictStack.lean: each operation of a stack with tables does to the lists what a sequence of operations without tables does (refinement, by induction over the history); with C134, what was proved of copies of requests carries over. |
| C136 | Parse/Mini.lean: the reader with the table of headers of `MINISIZE`; `atoi`, `strcasecmp` and `strncasecmp` of libc, used instead of the library's own, are taken to do the same | Parse/PropsMini.lean: both libraries read the header lines in step; a relation between the two messages is kept by each line (refinement), and the body is read from what they have in common. |
| C137 | Wire/Mini.lean: the operations of C117 with the reader of C136; the transaction layer is the same | Wire/PropsMini.lean: the members which the transactions use are equal by C136; equality of the runs by induction over the operations. |
| C138 | as C136 and C137; plain `char` matters in `osip_hash` (`signed`) and, in ISO C only, in the argument of `tolower`, which is taken to leave bytes above 127 as they are | Wire/PropsSigned.lean: the look-up of a name is the same by C44's characterisation, hence the readers are equal functions. |
| C139 | Dialog/Model.lean, as C33 and C63 | Dialog/PropsHistory.lean: what one update does to each member, then induction over the history (invariant). |
| C59 | `osip_transaction_init` with all clone, free and context functions on a heap of numbered blocks; every `osip_malloc` may fail, freeing a block not allocated is undefined (`Setup/Model.lean`) | ownership triples with frames for every function; if no list node fails: no undefined behaviour, a failing set-up leaves exactly the blocks of before, a successful one can be freed (`c59_setup_partial`); violated: `osip_list_clone` ignores a failing `osip_list_add`, whose element is lost when the set-up fails later, and `__osip_ict_init` leaves a dangling pointer which its caller would free (`c59_violated`; the latter cannot happen inside `osip_transaction_init`) |
| C60 | `osip_message_clone` and the clone function of every header, field by field (`Parse/Clone.lean`); the kept text is the block made by `osip_strdup` and `message_length` | a message is copied exactly if its parts are complete, and then the copy is equal (`c60_copy`); what can be written can be copied and the copy is written as the same bytes if the kept text has no NUL (`c60_clone_partial`); violated otherwise: writing the copy reads behind the block (`c60_violated`). That copy and original share no memory is not modelled: every string is copied with `osip_strdup`, every structure with its `_init` |
| C61 | FSM runs, NULL dereference = `none` | structural invariant of the four machines, every run is `some` |
| C62 | stack operations, NULL dereference = `none` | stack invariant; violated for an ACK without To header: negation and `_partial` |
| C63 | dialog set-up functions | decision logic |
| C64 | state machines, effect trace | invariant over all histories (types of the saved request, response and ACK) |
| C65 | state machines, timer fields | invariant on the timer lengths, then every transition |
