import Verif.Base

/-!
# Reason phrases: `osip_message_get_reason` (src/osipparser2/osip_message_parse.c:948-1065)

A code is an `int`. A phrase is the text without its terminator, `none` the null pointer.
-/

set_option autoImplicit false

namespace Osip.Reason

/-- `reasons1xx` (src/osipparser2/osip_message_parse.c:956-962). -/
def reasons1xx : List (Int × String) := [
  (100, "Trying"),
  (180, "Ringing"),
  (181, "Call Is Being Forwarded"),
  (182, "Queued"),
  (183, "Session Progress")]

/-- `reasons2xx` (src/osipparser2/osip_message_parse.c:963-966). -/
def reasons2xx : List (Int × String) := [
  (200, "OK"),
  (202, "Accepted")]

/-- `reasons3xx` (src/osipparser2/osip_message_parse.c:967-973). -/
def reasons3xx : List (Int × String) := [
  (300, "Multiple Choices"),
  (301, "Moved Permanently"),
  (302, "Moved Temporarily"),
  (305, "Use Proxy"),
  (380, "Alternative Service")]

/-- `reasons4xx` (src/osipparser2/osip_message_parse.c:974-1010). -/
def reasons4xx : List (Int × String) := [
  (400, "Bad Request"),
  (401, "Unauthorized"),
  (402, "Payment Required"),
  (403, "Forbidden"),
  (404, "Not Found"),
  (405, "Method Not Allowed"),
  (406, "Not Acceptable"),
  (407, "Proxy Authentication Required"),
  (408, "Request Timeout"),
  (409, "Conflict"),
  (410, "Gone"),
  (411, "Length Required"),
  (412, "Conditional Request Failed"),
  (413, "Request Entity Too Large"),
  (414, "Request-URI Too Long"),
  (415, "Unsupported Media Type"),
  (416, "Unsupported URI Scheme"),
  (417, "Unknown Resource-Priority"),
  (420, "Bad Extension"),
  (421, "Extension Required"),
  (422, "Session Interval Too Small"),
  (423, "Interval Too Brief"),
  (469, "Bad Info Package"),
  (480, "Temporarily Unavailable"),
  (481, "Call/Transaction Does Not Exist"),
  (482, "Loop Detected"),
  (483, "Too Many Hops"),
  (484, "Address Incomplete"),
  (485, "Ambiguous"),
  (486, "Busy Here"),
  (487, "Request Terminated"),
  (488, "Not Acceptable Here"),
  (489, "Bad Event"),
  (491, "Request Pending"),
  (493, "Undecipherable")]

/-- `reasons5xx` (src/osipparser2/osip_message_parse.c:1011-1019). -/
def reasons5xx : List (Int × String) := [
  (500, "Server Internal Error"),
  (501, "Not Implemented"),
  (502, "Bad Gateway"),
  (503, "Service Unavailable"),
  (504, "Server Time-out"),
  (505, "Version Not Supported"),
  (513, "Message Too Large")]

/-- `reasons6xx` (src/osipparser2/osip_message_parse.c:1020-1026). -/
def reasons6xx : List (Int × String) := [
  (600, "Busy Everywhere"),
  (603, "Decline"),
  (604, "Does Not Exist Anywhere"),
  (606, "Not Acceptable"),
  (687, "Dialog Terminated")]

/-- The table chosen by `switch (replycode / 100)` (src/osipparser2/osip_message_parse.c:1030-1057). Division goes towards zero. -/
def table (replycode : Int) : List (Int × String) :=
  match Int.tdiv replycode 100 with
  | 1 => reasons1xx
  | 2 => reasons2xx
  | 3 => reasons3xx
  | 4 => reasons4xx
  | 5 => reasons5xx
  | 6 => reasons6xx
  | _ => []

/-- `osip_message_get_reason` (src/osipparser2/osip_message_parse.c:948-1065). -/
def osip_message_get_reason (replycode : Int) : Option String := ((table replycode).find? fun r => r.1 == replycode).map (·.2)

end Osip.Reason
