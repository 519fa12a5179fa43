import Verif.Misc.Reason

/-!
# C103: every status code of RFC 3261 has its reason phrase
-/

set_option autoImplicit false

namespace Osip.Reason

/-- The codes of RFC 3261, section 21, with their phrases. -/
def rfc3261 : List (Int × String) := [
  (100, "Trying"), (180, "Ringing"), (181, "Call Is Being Forwarded"), (182, "Queued"), (183, "Session Progress"),
  (200, "OK"),
  (300, "Multiple Choices"), (301, "Moved Permanently"), (302, "Moved Temporarily"), (305, "Use Proxy"), (380, "Alternative Service"),
  (400, "Bad Request"), (401, "Unauthorized"), (402, "Payment Required"), (403, "Forbidden"), (404, "Not Found"),
  (405, "Method Not Allowed"), (406, "Not Acceptable"), (407, "Proxy Authentication Required"), (408, "Request Timeout"), (410, "Gone"),
  (413, "Request Entity Too Large"), (414, "Request-URI Too Long"), (415, "Unsupported Media Type"), (416, "Unsupported URI Scheme"),
  (420, "Bad Extension"), (421, "Extension Required"), (423, "Interval Too Brief"), (480, "Temporarily Unavailable"),
  (481, "Call/Transaction Does Not Exist"), (482, "Loop Detected"), (483, "Too Many Hops"), (484, "Address Incomplete"),
  (485, "Ambiguous"), (486, "Busy Here"), (487, "Request Terminated"), (488, "Not Acceptable Here"), (491, "Request Pending"),
  (493, "Undecipherable"),
  (500, "Server Internal Error"), (501, "Not Implemented"), (502, "Bad Gateway"), (503, "Service Unavailable"),
  (504, "Server Time-out"), (505, "Version Not Supported"), (513, "Message Too Large"),
  (600, "Busy Everywhere"), (603, "Decline"), (604, "Does Not Exist Anywhere"), (606, "Not Acceptable")]

/-- The codes of other documents that have a phrase: RFC 2543, 3265, 3903, 4028, 4412, 6086 and drafts. -/
def others : List (Int × String) := [
  (202, "Accepted"), (409, "Conflict"), (411, "Length Required"), (412, "Conditional Request Failed"), (417, "Unknown Resource-Priority"),
  (422, "Session Interval Too Small"), (469, "Bad Info Package"), (489, "Bad Event"), (687, "Dialog Terminated")]

/-- **C103**. Every code of RFC 3261 has the phrase that the document gives. -/
theorem c103_rfc3261 : ∀ r ∈ rfc3261, osip_message_get_reason r.1 = some r.2 := by decide +kernel

theorem phrase_listed {code : Int} {s : String} (h : osip_message_get_reason code = some s) : (code, s) ∈ rfc3261 ++ others := by
  unfold osip_message_get_reason at h
  obtain ⟨r, hr, rfl⟩ := Option.map_eq_some_iff.1 h
  have hm := List.mem_of_find?_eq_some hr
  have hc := List.find?_some hr
  simp only [beq_iff_eq] at hc
  subst hc
  have hall : ∀ t ∈ [reasons1xx, reasons2xx, reasons3xx, reasons4xx, reasons5xx, reasons6xx], ∀ x ∈ t, x ∈ rfc3261 ++ others := by decide +kernel
  refine hall (table r.1) ?_ r hm
  unfold table at hm ⊢
  split <;> simp_all

/-- **C103**. The codes of these documents have their phrase, every other number has none. -/
theorem c103_others (code : Int) (s : String) : osip_message_get_reason code = some s ↔ (code, s) ∈ rfc3261 ++ others := by
  refine ⟨phrase_listed, fun h => ?_⟩
  have hall : ∀ r ∈ rfc3261 ++ others, osip_message_get_reason r.1 = some r.2 := by decide +kernel
  exact hall _ h

/-- **C103**. A phrase can stand in a status line: it is not empty, does not begin or end with a blank, and holds only
printable ASCII characters, in particular no line end. -/
theorem c103_printable {code : Int} {s : String} (h : osip_message_get_reason code = some s) :
    s.toList ≠ [] ∧ s.toList.head? ≠ some ' ' ∧ s.toList.getLast? ≠ some ' ' ∧ (∀ c ∈ s.toList, ' ' ≤ c ∧ c ≤ '~') ∧ 100 ≤ code ∧ code ≤ 699 := by
  have hall : ∀ x ∈ rfc3261 ++ others, x.2.toList ≠ [] ∧ x.2.toList.head? ≠ some ' ' ∧ x.2.toList.getLast? ≠ some ' ' ∧
      (∀ c ∈ x.2.toList, ' ' ≤ c ∧ c ≤ '~') ∧ 100 ≤ x.1 ∧ x.1 ≤ 699 := by decide +kernel
  exact hall _ (phrase_listed h)

example : osip_message_get_reason 486 = some "Busy Here" ∧ osip_message_get_reason 199 = none ∧ osip_message_get_reason (-404) = none ∧
    osip_message_get_reason 2147483647 = none := by decide +kernel

end Osip.Reason
