import Verif.Wire.Props

/-!
# Concrete bytes: non-vacuity of C117 and the witness of the violation
-/

set_option autoImplicit false

namespace Osip

namespace WireEx

/-- A reader. -/
def reader : Reader := ⟨sscanf2, sscanfD1, true, theTable true false⟩

theorem ready : reader.Ready := parser_init_ok true false

def blank : Nat → Buf := fun n => List.replicate n ' '

def lines (l : List String) : List Char := (String.join (l.map (· ++ "\r\n"))).toList

/-- An INVITE of RFC 2543. -/
def oldInvite : List Char :=
  lines ["INVITE sip:bob@b.org SIP/2.0", "Via: SIP/2.0/UDP 10.0.0.1", "From: <sip:joe@a.org>;tag=f1", "To: <sip:bob@b.org>", "Call-ID: 7@a.org",
    "CSeq: 1 INVITE", ""]

/-- An ACK without To header. -/
def badAck : List Char :=
  lines ["ACK sip:bob@b.org SIP/2.0", "Via: SIP/2.0/UDP 10.0.0.1", "From: <sip:joe@a.org>;tag=f1", "Call-ID: 7@a.org", "CSeq: 1 ACK", ""]

def n0 : TimeVal := ⟨1, 0⟩

/-! Messages of a call. -/

def par (n v : String) : Param := ⟨n.toList, some v.toList⟩

theorem par_ok {n v : String} {c : Char} {t : Str} (hv : v.toList = c :: t)
    (h : n.toList ≠ [] ∧ Str.Ok n.toList ∧ ';' ∉ n.toList ∧ '=' ∉ n.toList ∧ Trimmed n.toList ∧ Trimmed v.toList ∧
      c ∉ [' ', '\t', ',', '"'] ∧ ';' ∉ c :: t ∧ Str.Ok (c :: t)) : WfParam (par n v) := by
  obtain ⟨h1, h2, h3, h4, h5, h6, h7, h8, h9⟩ := h
  refine ⟨⟨h1, h2, h3, h4, ?_⟩, h5, ?_⟩
  · intro x hx
    simp only [par, Option.mem_def, Option.some.injEq] at hx
    subst hx
    rw [hv]
    exact .plain (sp := []) (by simp) h7 h8 h9
  · intro x hx
    simp only [par, Option.mem_def, Option.some.injEq] at hx
    subst hx
    exact h6

/-- The headers of a message of the call: parameters of Via and To, and the method. -/
def callHdr (vp tp : List Param) (method : String) : Setter → List HeaderVal
  | .via => [.via { version := some "2.0".toList, protocol := some "UDP".toList, host := some "10.0.0.1".toList, via_params := vp }]
  | .from => [.addr { url := some (uriWith none []), gen_params := [par "tag" "f1"] }]
  | .to => [.addr { url := some (uriWith none []), gen_params := tp }]
  | .call_id => [.callId ⟨some "7".toList, some "a.org".toList⟩]
  | .cseq => [.cseq { number := some "1".toList, method := some method.toList }]
  | _ => []

/-- The line of a header is fine. -/
def lineOk (q : Setter × String) (x : HeaderVal) : Bool :=
  match headerToStr blank q.1 x with
  | some (_, some v) => decide (v.Ok ∧ v ≠ [] ∧ Trimmed v ∧ (∀ c ∈ v, c ≠ '\r' ∧ c ≠ '\n') ∧ ',' ∉ v)
  | _ => true

theorem uri_wf : WfUri (uriWith none []) :=
  ⟨⟨_, rfl, by decide, by decide⟩, by simp [uriWith, Bytes]; decide, by simp [uriWith],
    ⟨_, rfl, by decide, by decide, by unfold Trimmed; decide, by decide⟩, by simp [uriWith], by simp [uriWith],
    by simp [uriWith], rfl⟩

theorem uri_text : osip_uri_to_str blank (some (uriWith none [])) = some (OSIP_SUCCESS, some "sip:bob@b.org".toList) := by
  decide +kernel

theorem call_wf {start : StartLine} {vp tp : List Param} {method : String} (hs : WfStart blank start)
    (hvp : ∀ p ∈ vp, WfParam p ∧ ∀ c ∈ ['(', ')'], c ∉ p.gname ∧ ∀ x ∈ p.gvalue, c ∉ x) (htp : ∀ p ∈ tp, WfParam p)
    (hm : Str.Ok method.toList ∧ NoLeadingBlank method.toList)
    (hl : headerOrder.all (fun q => (callHdr vp tp method q.1).all (lineOk q)) = true) :
    WfMessage blank { start := start, hdr := callHdr vp tp method } := by
  have hf : ∀ ps : List Param, (∀ p ∈ ps, WfParam p) → WfFrom { url := some (uriWith none []), gen_params := ps } (uriWith none []) :=
    fun ps h => ⟨rfl, uri_wf, by simp [uriWith], by simp [uriWith], by simp, h⟩
  have htag : ∀ p ∈ [par "tag" "f1"], WfParam p := by
    intro p hp
    rw [List.mem_singleton] at hp
    subst hp
    exact par_ok rfl (by decide)
  refine ⟨hs, ?_, ?_, by simp, .none rfl, by simp [bodyPart]⟩
  · intro k hk
    cases k <;> exact Nat.le_of_ble_eq_true rfl
  · intro q hq x hx
    refine ⟨?_, ?_⟩
    · obtain ⟨k, name⟩ := q
      simp only at hx
      cases k <;> simp only [callHdr, List.mem_singleton, List.not_mem_nil] at hx
      all_goals subst hx
      · exact .call_id (by decide) (by intro h hh; cases hh; decide) (by decide) (by decide) (by decide)
      · exact .cseq (by decide) hm.1 (by decide) (by decide) (by decide) hm.2
      · exact .addr (by simp) (hf _ htag) uri_text (by decide)
      · exact .addr (by simp) (hf _ htp) uri_text (by decide)
      · exact .via ⟨_, rfl, by decide, _, rfl, by decide, _, rfl, by decide, by simp, hvp, by simp⟩
    · intro v hv
      have := List.all_eq_true.1 (List.all_eq_true.1 hl q hq) x hx
      simp only [lineOk, hv, decide_eq_true_eq] at this
      obtain ⟨a, b, c, d, e⟩ := this
      exact ⟨a, b, c, d, .inl e⟩

def branch : Param := par "branch" "z9hG4bKa"

/-- The INVITE, a response to it and the ACK. -/
def invite : SipMessage :=
  { start := { sip_method := some "INVITE".toList, req_uri := some (uriWith none []), sip_version := some "SIP/2.0".toList }
    hdr := callHdr [branch] [] "INVITE" }
def answer (code : Nat) : SipMessage :=
  { start := { sip_version := some "SIP/2.0".toList, status_code := code, reason_phrase := some "Done".toList }
    hdr := callHdr [branch, par "received" "203.0.113.5"] [par "tag" "t1"] "INVITE" }
def ack : SipMessage :=
  { start := { sip_method := some "ACK".toList, req_uri := some (uriWith none []), sip_version := some "SIP/2.0".toList }
    hdr := callHdr [branch] [par "tag" "t1"] "ACK" }

theorem branch_ok : WfParam branch ∧ ∀ c ∈ ['(', ')'], c ∉ branch.gname ∧ ∀ x ∈ branch.gvalue, c ∉ x :=
  ⟨par_ok rfl (by decide), by decide⟩

theorem version_ok : WfVersion "SIP/2.0".toList :=
  .mk (a := 'S') (b := 'I') (c := 'P') (d := "2.0".toList) (by decide) (by decide) (by decide) (by decide) (by decide)

theorem invite_wf : WfMessage blank invite :=
  call_wf (.request (t := "sip:bob@b.org".toList) (by decide) (by decide) (by decide) (by decide) uri_wf uri_text (by decide) version_ok)
    (by simpa using branch_ok) (by simp) ⟨by decide, by intro c hc; simp at hc; subst hc; decide⟩ (by decide +kernel)

theorem answer_wf (code : Nat) (h1 : 100 ≤ code) (h2 : code ≤ 699) : WfMessage blank (answer code) :=
  call_wf (.response (code := code) (by decide) (by decide) (by decide) h1 h2 (by decide) (by decide))
    (by
      intro p hp
      simp only [List.mem_cons, List.not_mem_nil, or_false] at hp
      rcases hp with rfl | rfl
      · exact branch_ok
      · exact ⟨par_ok rfl (by decide), by decide⟩)
    (by
      intro p hp
      simp only [List.mem_cons, List.not_mem_nil, or_false] at hp
      subst hp
      exact par_ok rfl (by decide)) ⟨by decide, by intro c hc; simp at hc; subst hc; decide⟩ (by decide +kernel)

theorem ack_wf : WfMessage blank ack :=
  call_wf (.request (t := "sip:bob@b.org".toList) (by decide) (by decide) (by decide) (by decide) uri_wf uri_text (by decide) version_ok)
    (by simpa using branch_ok)
    (by
      intro p hp
      simp only [List.mem_cons, List.not_mem_nil, or_false] at hp
      subst hp
      exact par_ok rfl (by decide)) ⟨by decide, by intro c hc; simp at hc; subst hc; decide⟩ (by decide +kernel)

/-- The text of a message. -/
def textOf (m : SipMessage) : List Char := ((osip_message_to_str blank false m).bind (·.2.2)).getD []

theorem written {m : SipMessage} (h : WfMessage blank m) (hc : m.cached = none) : WrittenAs blank m (textOf m) := by
  refine ⟨h, hc, ?_⟩
  obtain ⟨text, m', e, -⟩ := c88_message_round_trip_partial (by simp [blank]) sscanf2_ok sscanfD1_ok h hc (parser_init_ok true false)
  exact ⟨m', by rw [textOf, e]; rfl⟩

theorem ack_made : ict_create_ack invite.view (answer 486).view = some ack.view := by decide +kernel

end WireEx

open WireEx

/-- **C117** does not hold for all bytes: two datagrams make the library dereference NULL, an INVITE without branch and an ACK without To.
Each of them alone is read and dispatched. (See `c89_violated` for bytes which are not read safely.) -/
theorem c117_violated :
    ({} : Stack).netRun reader [.datagram oldInvite none n0 n0, .datagram badAck none n0 n0] = none ∧
    (({} : Stack).netRun reader [.datagram oldInvite none n0 n0]).isSome = true ∧
    (({} : Stack).netRun reader [.datagram badAck none n0 n0]).isSome = true := by
  have h : (({} : Stack).netRun reader [.datagram oldInvite none n0 n0, .datagram badAck none n0 n0]).isNone = true ∧
    (({} : Stack).netRun reader [.datagram oldInvite none n0 n0]).isSome = true ∧
    (({} : Stack).netRun reader [.datagram badAck none n0 n0]).isSome = true := by decide +kernel
  exact ⟨Option.isNone_iff_eq_none.1 h.1, h.2⟩

/-! ## Examples -/

/-- The text of the ACK reaches the transaction which the text of the INVITE created. -/
example : ∃ s e, StackReach s ∧ s.ids = [1] ∧ e ∈ s.list .IST ∧ Reaches reader s .IST e (textOf ack) ack.view := by
  obtain ⟨m', h1, h2⟩ := c117_text (r := reader) (by simp [blank]) ready sscanf2_ok sscanfD1_ok (written invite_wf rfl)
  have hs : ((({} : Stack).step (.receive (arrived m'.view (some ("203.0.113.5".toList, 5060))) n0 n0)).any fun s =>
      decide (s.ids = [1] ∧ s.ists.length = 1)) = true := by
    rw [h2]
    decide +kernel
  rw [Option.any_eq_true] at hs
  obtain ⟨s, hs, hp⟩ := hs
  rw [decide_eq_true_eq] at hp
  obtain ⟨e, he⟩ := List.length_eq_one_iff.1 hp.2
  have hmem : e ∈ s.list .IST := by simp [Stack.list, he]
  have hreach : StackReach s := StackReach.step ⟨[], rfl⟩ hs
  obtain ⟨hc, -⟩ := receive_created ⟨[], rfl⟩ hs hmem (by simp [Stack.ids])
  refine ⟨s, e, hreach, hp.1, hmem, ?_⟩
  refine c117_ack (by simp [blank]) ready sscanf2_ok sscanfD1_ok hreach hmem (written invite_wf rfl) h1 hc (b := "z9hG4bKa".toList)
    (n := some "1".toList) (by decide +kernel) rfl ⟨[], _, [], rfl, by simp, by decide, rfl⟩ ⟨"a".toList, by decide⟩ ?_ ack_made
    (written ack_wf rfl)
  intro x hx hne
  rw [Stack.list, he, List.mem_singleton] at hx
  exact absurd hx hne

/-- The headers of the ACK, seen at the other end. -/
example : ∃ ty m', osip_parse reader (textOf ack) = some (some (ty, m')) ∧ m'.view.vias.map Via.host = [some "10.0.0.1".toList] ∧
    m'.view.to = some { url := some (uriWith none []), gen_params := [par "tag" "t1"] } := by
  obtain ⟨ty, m', h1, h2, -, -, -, -, h3, -⟩ := c117_headers (r := reader) (by simp [blank]) ready sscanf2_ok sscanfD1_ok (written ack_wf rfl)
  exact ⟨ty, m', h1, by rw [h2 [_] rfl]; rfl, h3 _ [] rfl⟩

/-- The text of the response reaches the transaction of the INVITE. -/
example : ∃ c e, StackReach c ∧ c.ids = [1] ∧ e ∈ c.list .ICT ∧ Reaches reader c .ICT e (textOf (answer 486)) (answer 486).view := by
  obtain ⟨m', h1, h2⟩ := c117_text (r := reader) (by simp [blank]) ready sscanf2_ok sscanfD1_ok (written invite_wf rfl)
  have hs : ((osip_create_transaction {} ⟨false, invite.view, 0⟩ n0 n0).any fun p =>
      decide (p.1.ids = [1] ∧ p.1.icts.length = 1 ∧ p.2.isSome = true)) = true := by
    decide +kernel
  rw [Option.any_eq_true] at hs
  obtain ⟨⟨c, o⟩, hs, hp⟩ := hs
  rw [decide_eq_true_eq] at hp
  have hall : evtAllowed invite.view = true := by decide +kernel
  have hreach : StackReach c :=
    ⟨[.create ⟨false, invite.view, 0⟩ n0 n0], by simp [Stack.run, Stack.step, hall, hs]⟩
  rcases create_cases hs with ⟨-, rfl⟩ | ⟨k, hk, hi⟩
  · exact absurd hp.2.2 (by simp)
  have hkk : createKind ⟨false, invite.view, 0⟩ = some (some .ICT) := by decide +kernel
  rw [hkk] at hk
  cases hk
  rcases transaction_init_cases hi with ⟨-, rfl⟩ | ⟨-, rfl⟩ | ⟨e, -, -, hc, -, rfl⟩
  · exact absurd hp.2.2 (by simp)
  · exact absurd hp.2.2 (by simp)
  have hlist : ∀ l : List Entry, (Stack.setList { ({} : Stack) with transactionid := 2 } .ICT l).list .ICT = l := fun _ => rfl
  refine ⟨_, e, hreach, hp.1, by simp [Stack.setList, Stack.list], ?_⟩
  refine c117_response (src := some ("203.0.113.5".toList, 5060)) (m := "INVITE".toList) (n := some "1".toList) (b := "z9hG4bKa".toList)
    (by simp [blank]) ready sscanf2_ok sscanfD1_ok hreach (by decide) (by simp [Stack.setList, Stack.list]) hc (written invite_wf rfl) h1
    (by decide +kernel) rfl ⟨[], _, [], rfl, by simp, by decide, rfl⟩ ?_ (by decide +kernel) (by rw [h2]; decide +kernel)
    (by rw [h2]; decide +kernel) (written (answer_wf 486 (by decide) (by decide)) rfl)
  intro x hx hne
  simp only [Stack.setList, Stack.list, List.nil_append, List.mem_singleton] at hx
  exact absurd hx hne

/-- The dialogs on both sides of a call, made over the text of a 200, recognise requests of each other. -/
example : ∃ resp' ds dc, (∃ ty, osip_parse reader (textOf (answer 200)) = some (some (ty, resp'))) ∧
    dialog_init_as_uas invite.view (answer 200).view = some (.ok ds) ∧ dialog_init_as_uac resp'.view = some (.ok dc) ∧
    dc.call_id = some "7@a.org".toList ∧ dc.local_tag = ds.remote_tag ∧ dc.remote_tag = some "t1".toList ∧
    ∃ m', (∃ ty, osip_parse reader (textOf ack) = some (some (ty, m'))) ∧ dialog_match_as_uas (some ds) m'.view = some 0 := by
  have hw := written (answer_wf 200 (by decide) (by decide)) rfl
  obtain ⟨resp', h1, h2⟩ := c117_text (r := reader) (by simp [blank]) ready sscanf2_ok sscanfD1_ok hw
  obtain ⟨m', h3, h4⟩ := c117_text (r := reader) (by simp [blank]) ready sscanf2_ok sscanfD1_ok (written ack_wf rfl)
  have hd : ∃ ds, dialog_init_as_uas invite.view (answer 200).view = some (.ok ds) := by
    have h : (dialog_init_as_uas invite.view (answer 200).view).any (fun x => x.toOption.isSome) = true := by decide +kernel
    rw [Option.any_eq_true] at h
    obtain ⟨x, hx, h⟩ := h
    cases x with
    | error i => simp [Except.toOption] at h
    | ok d => exact ⟨d, hx⟩
  have hc : ∃ dc, dialog_init_as_uac resp'.view = some (.ok dc) ∧ dc.call_id = some "7@a.org".toList ∧ dc.remote_tag = some "t1".toList ∧
      dc.local_tag = some "f1".toList := by
    rw [h2]
    have h : (dialog_init_as_uac (answer 200).view).any (fun x => x.toOption.any fun d =>
        decide (d.call_id = some "7@a.org".toList ∧ d.remote_tag = some "t1".toList ∧ d.local_tag = some "f1".toList)) = true := by
      decide +kernel
    rw [Option.any_eq_true] at h
    obtain ⟨x, hx, h⟩ := h
    cases x with
    | error i => simp [Except.toOption] at h
    | ok d => exact ⟨d, hx, by simpa [Except.toOption] using h⟩
  obtain ⟨ds, hd⟩ := hd
  obtain ⟨dc, hc, c1, c2, c3⟩ := hc
  have key := c117_dialog (by simp [blank]) ready sscanf2_ok sscanfD1_ok hd hw h1 hc
  obtain ⟨⟨-, k1, -⟩, k2⟩ := key
  refine ⟨resp', ds, dc, ⟨_, h1⟩, hd, hc, c1, k1, c2, m', ⟨_, h3⟩, ?_⟩
  have tag : ∀ v, HasTag { url := some (uriWith none []), gen_params := [par "tag" v] } v.toList := by
    intro v
    rw [hasTag_iff]; rfl
  refine (k2 _ _ _ _ rfl (tag "f1") rfl (tag "t1") [] [] ack m' _ _ (written ack_wf rfl) h3).1 ⟨⟨_, _, rfl, c3, tag "f1"⟩, ⟨_, _, rfl, c2, tag "t1"⟩,
    _, c1, ⟨some "7".toList, some "a.org".toList⟩, "7".toList, rfl, rfl, .inr ⟨"a.org".toList, rfl, rfl⟩⟩

/-- Arbitrary bytes, twice the INVITE, an ACK without To for a transaction with a branch. -/
example : (({} : Stack).netRun reader [.datagram "\x00\r\nINVITE".toList none n0 n0, .datagram (textOf invite) none n0 n0,
    .datagram (textOf invite) none n0 n0, .datagram badAck none n0 n0]).map (·.ids) = some [1] := by decide +kernel

end Osip
