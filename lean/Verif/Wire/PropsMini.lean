import Verif.Wire.Mini
import Verif.Wire.Examples
import Verif.Parse.PropsMini

/-!
# C137: A stack in a library compiled with `MINISIZE` goes through the same states
-/

set_option autoImplicit false

namespace Osip

/-- Two readers of one machine: the table of the first is made by the full library, that of the second by the one compiled with
`MINISIZE`. -/
structure OneMachine (r r' : Reader) : Prop where
  sscanf : r'.sscanf = r.sscanf
  sscanfD : r'.sscanfD = r.sscanfD
  signed : r'.signed = r.signed
  full : parser_init r.signed false = some r.table
  small : parser_init r.signed true = some r'.table

theorem read_view {sscanf : Str → Option Nat} {m m' : SipMessage} (h : SameRead sscanf m m') : m'.view = m.view := by
  unfold SipMessage.view
  rw [h.start, h.common .via (by decide), h.common .from (by decide), h.common .to (by decide), h.common .call_id (by decide),
    h.common .cseq (by decide), h.common .route (by decide), h.common .record_route (by decide), h.common .contact (by decide),
    h.common .authorization (by decide), h.common .proxy_authorization (by decide)]

/-- The event of the bytes, up to the headers that only the full library knows. -/
theorem parse_both {r r' : Reader} (h : OneMachine r r') (bytes : List Char) :
    (mini_osip_parse r' bytes).map (Option.map fun e => (e.1, e.2.view)) = (osip_parse r bytes).map (Option.map fun e => (e.1, e.2.view)) := by
  unfold mini_osip_parse osip_parse
  rw [h.sscanf, h.sscanfD, h.signed]
  rcases c136_same r.sscanf r.sscanfD r.signed h.full h.small bytes with ⟨h1, h2⟩ | ⟨i, m, m', h1, h2, h3⟩
  · rw [h1, h2]
  · rw [h1, h2]
    simp only [Option.bind_eq_bind, Option.bind_some]
    by_cases hi : i ≠ 0
    · simp only [if_pos hi]
    · have hs := h3 (Classical.not_not.1 hi)
      simp only [if_neg hi, read_view hs, hs.start]
      split
      · split
        · rfl
        · simp [read_view hs]
      · simp [read_view hs]

theorem datagram_both {r r' : Reader} (h : OneMachine r r') (s : Stack) (bytes : List Char) (src : Option (Str × Int)) (now1 now2 : TimeVal) :
    s.miniDatagram r' bytes src now1 now2 = s.datagram r bytes src now1 now2 := by
  have := parse_both h bytes
  unfold Stack.miniDatagram Stack.datagram
  cases h1 : mini_osip_parse r' bytes with
  | none =>
    cases h2 : osip_parse r bytes with
    | none => rfl
    | some q => rw [h1, h2] at this; cases this
  | some p =>
    cases h2 : osip_parse r bytes with
    | none => rw [h1, h2] at this; cases this
    | some q =>
      rw [h1, h2] at this
      cases p <;> cases q <;> simp_all

/-- **C137.** Whatever comes from the network, a stack in a library compiled with `MINISIZE` goes through the states of one in the
full library, and neither runs into undefined behaviour if the other does not. -/
theorem c137_same_run {r r' : Reader} (h : OneMachine r r') (s : Stack) (ops : List NetOp) :
    s.miniNetRun r' ops = s.netRun r ops := by
  induction ops generalizing s with
  | nil => rfl
  | cons o os ih =>
    have : s.miniNet r' o = s.net r o := by
      cases o with
      | datagram bytes src now1 now2 => exact datagram_both h s bytes src now1 now2
      | _ => rfl
    simp only [Stack.miniNetRun, Stack.netRun, this, ih]

namespace WireEx

def miniReader : Reader := ⟨sscanf2, sscanfD1, true, theTable true true⟩

theorem one : OneMachine reader miniReader := ⟨rfl, rfl, rfl, parser_init_ok true false, parser_init_ok true true⟩

/-- An INVITE with headers of which the small library has no structures. -/
def newInvite : List Char :=
  lines ["INVITE sip:bob@b.org SIP/2.0", "Via: SIP/2.0/UDP 10.0.0.1;branch=z9hG4bKa", "Allow: INVITE, ACK", "From: <sip:joe@a.org>;tag=f1",
    "To: <sip:bob@b.org>", "Accept: text/plain", "Call-ID: 7@a.org", "CSeq: 1 INVITE", ""]

/-- It creates a transaction in both, and its copy none. -/
example :
    ((({} : Stack).miniNetRun miniReader [.datagram newInvite none n0 n0, .datagram newInvite none n0 n0]).map fun s =>
      (s.ists.length, s.icts.length)) = some (1, 0) ∧
    ((({} : Stack).netRun reader [.datagram newInvite none n0 n0, .datagram newInvite none n0 n0]).map fun s =>
      (s.ists.length, s.icts.length)) = some (1, 0) := by
  decide +kernel

end WireEx

end Osip
