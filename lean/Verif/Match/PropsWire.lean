import Verif.Match.Examples
import Verif.Match.PropsOld
import Verif.Fsm.AckLemmas
import Verif.Parse.FixVia

/-!
# Messages of a transaction find the transaction at the other end: C115
-/

set_option autoImplicit false

namespace Osip

/-- A message as the other end uses it: unchanged, or after `osip_message_fix_last_via_header` put
the address it came from into the top Via. -/
def Arrives (m m' : Msg) : Prop :=
  m' = m ∨ ∃ ip port, (fix_last_via_header (some m) ip port).2 = some m'

/-- What a Via has in common before and after the address is put in. -/
structure ViaKept (v v' : Via) : Prop where
  host : v'.host = v.host
  port : v'.port = v.port
  branch : paramByName v'.via_params "branch" = paramByName v.via_params "branch"

theorem paramByName_cons (p : Param) (ps : List Param) (n : String) :
    paramByName (p :: ps) n =
      if (p.gname.length == n.toList.length && strcaseEq p.gname n.toList) = true then some p
      else paramByName ps n := by
  unfold paramByName
  rw [List.find?_cons]
  split <;> simp_all

theorem fixRport_branch (port : Int) (ps : List Param) :
    paramByName (fixRport port ps) "branch" = paramByName ps "branch" := by
  induction ps with
  | nil => rfl
  | cons p ps ih =>
    unfold fixRport
    split
    · next h =>
      have hr := (byName_iff p "rport" (by decide)).1 h
      have hb : ¬ (p.gname.length == "branch".toList.length && strcaseEq p.gname "branch".toList) = true := by
        rw [byName_iff p "branch" (by decide), hr]
        decide
      split
      · rw [paramByName_cons, paramByName_cons, if_neg hb, if_neg hb]
      · rfl
    · rw [paramByName_cons, paramByName_cons, ih]

theorem received_branch (ps : List Param) (v : Option Str) :
    paramByName (ps ++ [⟨"received".toList, v⟩]) "branch" = paramByName ps "branch" := by
  induction ps with
  | nil => rfl
  | cons p ps ih => rw [List.cons_append, paramByName_cons, paramByName_cons, ih]

theorem arrives_vias {m m' : Msg} (h : Arrives m m') :
    (m' = m ∨ ∃ v v' vs, m.vias = v :: vs ∧ m' = { m with vias := v' :: vs } ∧ ViaKept v v') := by
  rcases h with h | ⟨ip, port, h⟩
  · exact .inl h
  · unfold fix_last_via_header at h
    simp only at h
    split at h
    · exact .inl (by simpa using h.symm)
    split at h
    · exact .inl (by simpa using h.symm)
    next v vs hv =>
    split at h
    · exact .inl (by simpa using h.symm)
    split at h
    · simp only [Option.some.injEq] at h
      exact .inr ⟨v, _, vs, hv, h.symm, ⟨rfl, rfl, fixRport_branch _ _⟩⟩
    · simp only [Option.some.injEq] at h
      exact .inr ⟨v, _, vs, hv, h.symm, ⟨rfl, rfl, (received_branch _ _).trans (fixRport_branch _ _)⟩⟩

/-- The top Via of a message that arrives. -/
theorem arrives_top {m m' : Msg} (h : Arrives m m') {v' : Via} (hv : m'.vias.head? = some v') :
    ∃ v, m.vias.head? = some v ∧ ViaKept v v' := by
  rcases arrives_vias h with rfl | ⟨v, v1, vs, h1, rfl, h2⟩
  · exact ⟨v', hv, rfl, rfl, rfl⟩
  · simp only [List.head?_cons, Option.some.injEq] at hv
    subst hv
    exact ⟨v, by simp [h1], h2⟩

theorem arrives_top' {m m' : Msg} (h : Arrives m m') {v : Via} (hv : m.vias.head? = some v) :
    ∃ v', m'.vias.head? = some v' ∧ ViaKept v v' := by
  rcases arrives_vias h with rfl | ⟨v0, v1, vs, h1, rfl, h2⟩
  · exact ⟨v, hv, rfl, rfl, rfl⟩
  · simp only [h1, List.head?_cons, Option.some.injEq] at hv
    subst hv
    exact ⟨v1, rfl, h2⟩

theorem arrives_rest {m m' : Msg} (h : Arrives m m') : m' = { m with vias := m'.vias } := by
  rcases arrives_vias h with rfl | ⟨v0, v1, vs, h1, rfl, h2⟩ <;> rfl

theorem ViaKept.isBranch {v v' : Via} (h : ViaKept v v') (b : Str) : IsBranch v' b ↔ IsBranch v b := by
  rw [isBranch_iff, isBranch_iff, h.branch]

theorem IsBranch.eq {v : Via} {a b : Str} (h : IsBranch v a) (h' : IsBranch v b) : a = b := by
  rw [isBranch_iff] at h h'
  obtain ⟨p, h1, h2⟩ := h
  obtain ⟨q, h3, h4⟩ := h'
  rw [h1] at h3
  cases h3
  rw [h2] at h4
  simpa using h4

/-! ## The ACK -/

/-- **C115** (the ACK of a non-2xx response reaches its INVITE). A client whose INVITE has a
magic-cookie branch makes an ACK from it and a response. As it arrives it matches the server
transaction which the INVITE, as it arrived, created. -/
theorem c115_ack {inv inv' resp a a' : Msg} {e : Entry} {v : Via} {b : Str} {n : Option Str}
    (hi : Arrives inv inv') (he : CreatedBy inv' .IST e)
    (hm : inv.cseq = some ⟨some "INVITE".toList, n⟩)
    (hv : inv.vias.head? = some v) (hb : IsBranch v b) (hc : Magic b)
    (ha : ict_create_ack inv resp = some a) (har : Arrives a a') :
    matching_request e a' = some OSIP_SUCCESS := by
  obtain ⟨f, t, c, q, u, w, ws, h1, h2, h3, h4, h5, h6, rfl⟩ := create_ack_eq ha
  rw [h6, List.head?_cons, Option.some.injEq] at hv
  subst hv
  obtain ⟨va, hva, ka⟩ := arrives_top' har (v := w) rfl
  obtain ⟨vi, hvi, ki⟩ := arrives_top hi he.topvia
  rw [h6, List.head?_cons, Option.some.injEq] at hvi
  subst hvi
  have hq : a'.cseq = some ⟨some "ACK".toList, q.number⟩ := by rw [arrives_rest har]
  have hem : e.cseq.method = some "INVITE".toList := by
    have := he.cseq
    rw [arrives_rest hi] at this
    simp only [hm, Option.some.injEq] at this
    rw [← this]
  refine (c19_request_matching (.inl he.kind) (b1 := b) (b2 := b) hva (by rw [hq]; rfl) hem
    ((ki.isBranch b).2 hb) ((ka.isBranch b).2 hb) hc hc).2 ⟨rfl, ⟨?_, ?_⟩, .inr ⟨rfl, rfl⟩⟩
  · obtain ⟨h, hh⟩ := Option.isSome_iff_exists.1 he.via_host
    exact ⟨h, hh, by rw [ka.host, ← ki.host, hh]⟩
  · rw [ka.port, ki.port]

/-- The first entry that passes a test is the only one that does. -/
theorem findM_only {α : Type} {p : α → Option Bool} {l : List α} {e : α} (he : e ∈ l)
    (hp : p e = some true) (ho : ∀ x ∈ l, x ≠ e → p x = some false) : findM p l = some (some e) := by
  induction l with
  | nil => cases he
  | cons y ys ih =>
    by_cases hy : y = e
    · subst hy
      simp [findM, hp]
    · have he' : e ∈ ys := by
        rcases List.mem_cons.1 he with h | h
        · exact absurd h.symm hy
        · exact h
      simp only [findM, ho y (by simp) hy, Option.bind_eq_bind, Option.bind_some, Bool.false_eq_true,
        if_false]
      exact ih he' (fun x hx => ho x (by simp [hx]))

/-- The lookup for the ACK. -/
theorem ack_lookup {s : Stack} {inv inv' resp a a' : Msg} {e : Entry} {v : Via} {b : Str}
    {n : Option Str} (hs : StackReach s) (hmem : e ∈ s.ists)
    (hi : Arrives inv inv') (he : CreatedBy inv' .IST e)
    (hm : inv.cseq = some ⟨some "INVITE".toList, n⟩)
    (hv : inv.vias.head? = some v) (hb : IsBranch v b) (hc : Magic b)
    (ho : ∀ x ∈ s.ists, x ≠ e → ∃ bx, IsBranch x.topvia bx ∧ Magic bx ∧
      (bx ≠ b ∨ ¬ SameSentBy x.topvia v))
    (ha : ict_create_ack inv resp = some a) (har : Arrives a a') :
    osip_find_transaction s { incoming := true, m := a' } = some (some e) ∧ evtAllowed a' = true := by
  have hmatch := c115_ack hi he hm hv hb hc ha har
  have hinv := stackReach_sinv hs
  obtain ⟨f, t, c, q, u, w, ws, h1, h2, h3, h4, h5, h6, rfl⟩ := create_ack_eq ha
  rw [h6, List.head?_cons, Option.some.injEq] at hv
  subst hv
  obtain ⟨va, hva, ka⟩ := arrives_top' har (v := w) rfl
  have hr := arrives_rest har
  have hq : a'.cseq = some ⟨some "ACK".toList, q.number⟩ := by rw [hr]
  have hcode : a'.status_code = 0 := by rw [hr]
  have hmeth : a'.sip_method = some "ACK".toList := by rw [hr]
  have huri : a'.req_uri = some u := by rw [hr]
  have hto : a'.to = some t := by rw [hr]
  have hkind : searchKind { incoming := true, m := a' } = some .IST := by
    simp [searchKind, hq, Msg.isRequest, hcode]
  have hreq : (MsgEv.type { incoming := true, m := a' }).isIncomingReq = true :=
    (incomingReq_iff _).2 ⟨rfl, hcode⟩
  have hall : evtAllowed a' = true := by simp [evtAllowed, hmeth, huri]
  refine ⟨?_, hall⟩
  have hfind : osip_find_transaction s { incoming := true, m := a' } = some (some e) := by
    unfold osip_find_transaction
    simp only [hq, Option.isNone_some, Bool.false_eq_true, if_false, hkind, Option.bind_eq_bind,
      Option.bind_some, osip_transaction_find, hreq, if_true, Stack.list]
    apply findM_only hmem
    · rw [hmatch]; rfl
    · intro x hx hne
      obtain ⟨rx, hcx⟩ := hinv.created .IST x hx
      obtain ⟨bx, g1, g2, g3⟩ := ho x hx hne
      obtain ⟨mx, hmx⟩ := Option.isSome_iff_exists.1 hcx.cseq_method
      obtain ⟨i, hxi⟩ := Option.isSome_iff_exists.1 (matching_request_isSome hcx.cseq_method
        (r := a') (by rw [hmeth]; rfl) (fun _ => by rw [hto]; rfl))
      rw [hxi]
      simp only [Option.map_some, Option.some.injEq, beq_eq_false_iff_ne, ne_eq]
      rintro rfl
      obtain ⟨k1, k2, -⟩ := (c19_request_matching (.inl hcx.kind) hva (by rw [hq]; rfl) hmx g1
        ((ka.isBranch b).2 hb) g2 hc).1 hxi
      rcases g3 with g3 | g3
      · exact g3 k1
      · refine g3 ⟨?_, ?_⟩
        · obtain ⟨⟨hh, k3, k4⟩, -⟩ := k2
          exact ⟨hh, k3, by rw [← ka.host]; exact k4⟩
        · rw [k2.2, ka.port]
  exact hfind

/-- **C115** (at the level of the stack). The lookup for the ACK finds that transaction, if every
other INVITE transaction of the server has a magic-cookie branch and differs in branch or sent-by.
The ACK is queued there and creates no transaction. -/
theorem c115_ack_found {s s' : Stack} {inv inv' resp a a' : Msg} {e : Entry} {v : Via} {b : Str}
    {n : Option Str} {n1 n2 : TimeVal} (hs : StackReach s) (hmem : e ∈ s.ists)
    (hi : Arrives inv inv') (he : CreatedBy inv' .IST e)
    (hm : inv.cseq = some ⟨some "INVITE".toList, n⟩)
    (hv : inv.vias.head? = some v) (hb : IsBranch v b) (hc : Magic b)
    (ho : ∀ x ∈ s.ists, x ≠ e → ∃ bx, IsBranch x.topvia bx ∧ Magic bx ∧
      (bx ≠ b ∨ ¬ SameSentBy x.topvia v))
    (ha : ict_create_ack inv resp = some a) (har : Arrives a a')
    (hst : s.step (.receive a' n1 n2) = some s') :
    osip_find_transaction s { incoming := true, m := a' } = some (some e) ∧
      s' = s.setList .IST (s.ists.map fun x =>
        if x.transactionid = e.transactionid then e.addEvent ⟨true, a', 0⟩ else x) := by
  obtain ⟨hfind, hall⟩ := ack_lookup hs hmem hi he hm hv hb hc ho ha har
  have hinv := stackReach_sinv hs
  refine ⟨hfind, ?_⟩
  simp only [Stack.step, Stack.receive, hall, not_true_eq_false, if_false,
    osip_find_transaction_and_add_event, hfind, Option.bind_eq_bind, Option.bind_some,
    Option.pure_def, if_true, he.kind, Stack.setList, Stack.list, Option.some.injEq] at hst
  rw [← hst]
  simp only [updateId]
  congr 1
  apply List.map_congr_left
  intro x hx
  split
  · next hid =>
    rw [eq_of_id (hinv.sorted .IST) hx hmem hid]
  · rfl

/-! ## Responses -/

/-- **C115** (responses reach their request). A response with the Via headers and the CSeq of the
request as it arrived (RFC 3261 8.2.6.2) is found to belong to the client transaction of the
request, if no other client transaction of that kind has its branch and method. -/
theorem c115_response {c : Stack} {k : Kind} {req req' r r' : Msg} {e : Entry} {v : Via} {b m : Str}
    {n : Option Str} (hs : StackReach c) (hk : k = if m = "INVITE".toList then .ICT else .NICT)
    (hmem : e ∈ c.list k) (he : CreatedBy req k e) (hi : Arrives req req')
    (hm : req.cseq = some ⟨some m, n⟩) (hv : req.vias.head? = some v) (hb : IsBranch v b)
    (ho : ∀ x ∈ c.list k, x ≠ e → ¬ (IsBranch x.topvia b ∧ x.cseq.method = some m))
    (hr : r.status_code ≠ 0) (hrv : r.vias = req'.vias) (hrc : r.cseq = req'.cseq)
    (har : Arrives r r') :
    osip_find_transaction c { incoming := true, m := r' } = some (some e) := by
  have hrr : r' = r := by
    rcases har with h | ⟨ip, port, h⟩
    · exact h
    · simpa [fix_last_via_header, Msg.isResponse, hr] using h.symm
  subst hrr
  have hinv := stackReach_sinv hs
  have hq : r'.cseq = some ⟨some m, n⟩ := by rw [hrc, arrives_rest hi, hm]
  obtain ⟨v', hv', kv⟩ := arrives_top' hi hv
  rw [← hrv] at hv'
  have hreq : r'.isRequest = false := by simp [Msg.isRequest, hr]
  have hinc : (MsgEv.type { incoming := true, m := r' }).isIncomingReq = false := by
    simp only [MsgEv.type, if_true, evt_type_incoming, hreq, Bool.false_eq_true, if_false]
    repeat' split
    all_goals rfl
  have hresp : (MsgEv.type { incoming := true, m := r' }).isIncomingResp = true := by
    simp only [MsgEv.type, if_true, evt_type_incoming, hreq, Bool.false_eq_true, if_false]
    repeat' split
    all_goals rfl
  have hkind : searchKind { incoming := true, m := r' } = some k := by
    simp only [searchKind, hq, Option.bind_some, if_true, hreq, Bool.false_eq_true, if_false,
      Option.bind_eq_bind, Option.pure_def, decide_eq_true_eq, hk]
  have hcl : ∀ x ∈ c.list k, x.kind = .ICT ∨ x.kind = .NICT := by
    intro x hx
    obtain ⟨rx, hcx⟩ := hinv.created k x hx
    rw [hcx.kind, hk]
    split <;> simp
  have hte : e.topvia = v := by
    have := he.topvia
    rw [hv] at this
    simpa using this.symm
  have hce : e.cseq = ⟨some m, n⟩ := by
    have := he.cseq
    rw [hm] at this
    simpa using this.symm
  unfold osip_find_transaction
  simp only [hq, Option.isNone_some, Bool.false_eq_true, if_false, hkind, Option.bind_eq_bind,
    Option.bind_some, osip_transaction_find, hinc, hresp, if_true]
  apply findM_only hmem
  · rw [(c18_response_matching (hcl e hmem) r').2 ⟨v', b, m, hv', (kv.isBranch b).2 hb,
      by rw [hte]; exact hb, by rw [hq]; rfl, by rw [hce]⟩]
    rfl
  · intro x hx hne
    obtain ⟨rx, hcx⟩ := hinv.created k x hx
    obtain ⟨i, hxi⟩ := Option.isSome_iff_exists.1 (matching_response_isSome hcx.cseq_method r')
    rw [hxi]
    simp only [Option.map_some, Option.some.injEq, beq_eq_false_iff_ne, ne_eq]
    rintro rfl
    obtain ⟨v2, b2, m2, q1, q2, q3, q4, q5⟩ := (c18_response_matching (hcl x hx) r').1 hxi
    rw [hv'] at q1
    cases q1
    rw [hq] at q4
    simp only [Option.bind_some, Option.some.injEq] at q4
    subst q4
    have := IsBranch.eq ((kv.isBranch b).2 hb) q2
    subst this
    exact ho x hx hne ⟨q3, q5⟩

/-! ## CANCEL has the branch of the INVITE -/

theorem matching_request_method {e : Entry} {r : Msg} (h : matching_request e r = some OSIP_SUCCESS) :
    ∃ m1 m2, e.cseq.method = some m1 ∧ r.cseq.bind (·.method) = some m2 ∧
      (m1 = m2 ∨ (m2 = "INVITE".toList ∨ m2 = "ACK".toList)) := by
  have hold : ∀ {topvia : Via} {m : Str}, r.cseq.bind (·.method) = some m →
      matching_request_2543 e r topvia = some OSIP_SUCCESS →
      ∃ m1, e.cseq.method = some m1 ∧ (m1 = m ∨ (m = "INVITE".toList ∨ m = "ACK".toList)) := by
    intro topvia m hm h
    have hc : cseq_match (some e.cseq) r.cseq = 0 := by
      unfold matching_request_2543 at h
      simp only [OSIP_UNDEFINED_ERROR, OSIP_SUCCESS, Option.bind_eq_bind, Option.pure_def] at h
      split at h
      · simp at h
      · simp only [Option.bind_eq_some_iff] at h
        obtain ⟨b, hb, h⟩ := h
        cases b with
        | true =>
          simp only [if_true, Option.bind_eq_some_iff] at h
          obtain ⟨t, ht, h⟩ := h
          grind
        | false =>
          simp only [Bool.false_eq_true, if_false] at h
          grind
    cases hr : r.cseq with
    | none => simp [hr] at hm
    | some c =>
      rw [hr, cseq_match_iff] at hc
      obtain ⟨n, m1, m2, e1, e2, e3⟩ := hc
      rw [hr, e2] at hm
      simp only [Option.bind_some, Option.some.injEq] at hm
      subst hm
      refine ⟨m1, by rw [e1], ?_⟩
      rcases e3 with e3 | ⟨-, e3⟩
      · exact .inl e3
      · exact .inr (by simpa using e3)
  unfold matching_request at h
  split at h
  · simp [OSIP_BADPARAMETER, OSIP_SUCCESS] at h
  split at h
  · simp [OSIP_BADPARAMETER, OSIP_SUCCESS] at h
  next m hm =>
  have fin : ∀ {topvia : Via}, matching_request_2543 e r topvia = some OSIP_SUCCESS →
      ∃ m1 m2, e.cseq.method = some m1 ∧ some m = some m2 ∧
      (m1 = m2 ∨ (m2 = "INVITE".toList ∨ m2 = "ACK".toList)) := by
    intro topvia h
    obtain ⟨m1, h1, h2⟩ := hold hm h
    exact ⟨m1, m, h1, rfl, h2⟩
  rw [hm]
  split at h
  · simp [OSIP_SYNTAXERROR, OSIP_SUCCESS] at h
  split at h
  · simp [OSIP_SYNTAXERROR, OSIP_SUCCESS] at h
  · simp [OSIP_SYNTAXERROR, OSIP_SUCCESS] at h
  · split at h
    · split at h
      · simp [OSIP_UNDEFINED_ERROR, OSIP_SUCCESS] at h
      · split at h
        · unfold matching_request_3261 at h
          simp only [OSIP_UNDEFINED_ERROR, OSIP_SUCCESS] at h
          cases hem : e.cseq.method with
          | none => simp only [hem] at h; grind
          | some m1 =>
            refine ⟨m1, m, rfl, rfl, ?_⟩
            simp only [hem] at h
            grind
        · exact fin h
    · simp [OSIP_UNDEFINED_ERROR, OSIP_SUCCESS] at h
  · exact fin h

/-- **C115** (a CANCEL and its responses stay apart from the INVITE). A CANCEL has the Via and the
CSeq number of the INVITE it cancels. Whatever its branch, the lookup finds only a transaction that
was created by a CANCEL, and so does the lookup for a response to it. -/
theorem c115_cancel {s : Stack} {m : Msg} {e : Entry} {n : Option Str} (hs : StackReach s)
    (hm : m.cseq = some ⟨some "CANCEL".toList, n⟩)
    (h : osip_find_transaction s { incoming := true, m } = some (some e)) :
    ∃ req, CreatedBy req (if m.status_code = 0 then .NIST else .NICT) e ∧
      req.cseq.bind (·.method) = some "CANCEL".toList := by
  by_cases hr : m.status_code = 0
  · rw [if_pos hr]
    have hkind : searchKind { incoming := true, m } = some .NIST := by
      simp [searchKind, hm, Msg.isRequest, hr]
    have hreq : (MsgEv.type { incoming := true, m }).isIncomingReq = true :=
      (incomingReq_iff _).2 ⟨rfl, hr⟩
    unfold osip_find_transaction at h
    simp only [hm, Option.isNone_some, Bool.false_eq_true, if_false, hkind, Option.bind_eq_bind,
      Option.bind_some, osip_transaction_find, hreq, if_true] at h
    obtain ⟨a, c, h1, h2, h3⟩ := findM_some h
    have hmem : e ∈ s.list .NIST := by rw [h1]; simp
    obtain ⟨req, hc⟩ := (stackReach_sinv hs).created .NIST e hmem
    refine ⟨req, hc, ?_⟩
    simp only [Option.map_eq_some_iff, beq_iff_eq] at h2
    obtain ⟨i, hi, rfl⟩ := h2
    obtain ⟨m1, m2, k1, k2, k3⟩ := matching_request_method hi
    rw [hm] at k2
    simp only [Option.bind_some, Option.some.injEq] at k2
    subst k2
    rw [hc.cseq, Option.bind_some, k1]
    rcases k3 with k3 | k3 | k3
    · rw [k3]
    · exact absurd k3 (by decide)
    · exact absurd k3 (by decide)
  · rw [if_neg hr]
    obtain ⟨v, b, m', req, k, _, _, -, -, -, q4, q5, hc, hk, -⟩ := c18_found hs hr h
    rw [hm] at q4
    simp only [Option.bind_some, Option.some.injEq] at q4
    subst q4
    rw [if_neg (by decide)] at hk
    subst hk
    exact ⟨req, hc, by rw [hc.cseq]; exact q5⟩

/-! ## RFC 2543 -/

theorem fix_head {m1 m2 m1' m2' : Msg} {ip : Str} {port : Int} (h1 : m1.status_code = 0)
    (h2 : m2.status_code = 0) (hv : m1.vias.head? = m2.vias.head?)
    (e1 : (fix_last_via_header (some m1) ip port).2 = some m1')
    (e2 : (fix_last_via_header (some m2) ip port).2 = some m2') :
    m1'.vias.head? = m2'.vias.head? := by
  unfold fix_last_via_header at e1 e2
  simp only [Msg.isResponse, h1, h2, bne_self_eq_false, Bool.false_eq_true, if_false] at e1 e2
  cases hv1 : m1.vias with
  | nil =>
    cases hv2 : m2.vias with
    | nil =>
      simp only [hv1, hv2, Option.some.injEq] at e1 e2
      rw [← e1, ← e2, hv1, hv2]
    | cons v vs => simp [hv1, hv2] at hv
  | cons v vs =>
    cases hv2 : m2.vias with
    | nil => simp [hv1, hv2] at hv
    | cons w ws =>
      simp only [hv1, hv2, List.head?_cons, Option.some.injEq] at hv
      subst hv
      simp only [hv1, hv2] at e1 e2
      cases hh : v.host with
      | none =>
        simp only [hh, Option.some.injEq] at e1 e2
        rw [← e1, ← e2, hv1, hv2]
        rfl
      | some host =>
        simp only [hh] at e1 e2
        by_cases hip : host = ip <;> simp only [hip, if_true, if_false, Option.some.injEq] at e1 e2 <;>
          rw [← e1, ← e2] <;> rfl

/-- **C115** (RFC 2543; the part that holds). Without a magic-cookie branch the ACK still matches the
server transaction, if the response has the Call-ID, the CSeq number and the From tag of the INVITE
and keeps its To tag or adds one, and if both requests came from the same address and port.
Missing: another source port (`c115_violated`). -/
theorem c115_old_partial {inv inv' resp a a' : Msg} {e : Entry} {v : Via} {num : Str} {f t tr : From}
    {c : CallId} {ip : Str} {port : Int} (hreq : inv.status_code = 0)
    (hi : (fix_last_via_header (some inv) ip port).2 = some inv') (he : CreatedBy inv' .IST e)
    (hm : inv.cseq = some ⟨some "INVITE".toList, some num⟩)
    (hv : inv.vias.head? = some v)
    (hb : NoParam v.via_params "branch" ∨ ∃ b, IsBranch v b ∧ ¬ Magic b)
    (hf : inv.from_ = some f) (ht : inv.to = some t)
    (rc : resp.call_id = inv.call_id) (hc : inv.call_id = some c)
    (rq : resp.cseq = inv.cseq) (rf : resp.from_ = inv.from_) (rtag : SameTag f f)
    (rt : resp.to = some tr) (hto : SameTag t tr ∨
      (NoParam t.gen_params "tag" ∧ ¬ NoParam tr.gen_params "tag"))
    (ha : ict_create_ack inv resp = some a)
    (har : (fix_last_via_header (some a) ip port).2 = some a') :
    matching_request e a' = some OSIP_SUCCESS := by
  have hi' : Arrives inv inv' := .inr ⟨ip, port, hi⟩
  have har' : Arrives a a' := .inr ⟨ip, port, har⟩
  obtain ⟨f2, t2, c2, q, u, w, ws, h1, h2, h3, h4, h5, h6, rfl⟩ := create_ack_eq ha
  rw [h6, List.head?_cons, Option.some.injEq] at hv
  subst hv
  rw [rf, hf] at h1; rw [rt] at h2; rw [rc, hc] at h3; rw [rq, hm] at h4
  cases h1; cases h2; cases h3; cases h4
  have hhead := fix_head hreq rfl (by rw [h6]; rfl) hi har
  rw [he.topvia] at hhead
  obtain ⟨vi, hvi, ki⟩ := arrives_top hi' he.topvia
  rw [h6, List.head?_cons, Option.some.injEq] at hvi
  subst hvi
  have r1 := arrives_rest hi'
  have r2 := arrives_rest har'
  have ec : e.callid = c := by
    have := he.callid; rw [r1] at this; simp only [hc, Option.some.injEq] at this; exact this.symm
  have eq : e.cseq = ⟨some "INVITE".toList, some num⟩ := by
    have := he.cseq; rw [r1] at this; simp only [hm, Option.some.injEq] at this; exact this.symm
  have ef : e.from_ = f := by
    have := he.from_; rw [r1] at this; simp only [hf, Option.some.injEq] at this; exact this.symm
  have et : e.to = t := by
    have := he.to; rw [r1] at this; simp only [ht, Option.some.injEq] at this; exact this.symm
  have hold : OldBranches e.topvia e.topvia := by
    rcases hb with hb | ⟨b, hb, hnm⟩
    · refine .inl ?_
      rw [← noParam_iff branch_lower] at hb ⊢
      rw [ki.branch]
      exact ⟨hb, hb⟩
    · exact .inr ⟨b, b, (ki.isBranch b).2 hb, (ki.isBranch b).2 hb, rfl, fun h => hnm h.1⟩
  refine (c67_request_matching (.inl he.kind) (v := e.topvia) (c := c)
    (s := ⟨some "ACK".toList, some num⟩) (f := f) (t := tr) (m2 := "ACK".toList) (meth := "ACK".toList)
    hhead.symm (by rw [r2]) (by rw [r2]) rfl (by rw [r2]) (by rw [r2]) (by rw [r2]) (by rw [r2]) hold).2
    ⟨?_, ?_, ?_, ?_, ?_⟩
  · rw [ec]
    exact ⟨by rw [← ec]; exact he.callid_number, rfl, rfl⟩
  · rw [eq]
    exact ⟨num, _, _, rfl, rfl, .inr ⟨by simp, by simp⟩⟩
  · rw [ef]; exact rtag
  · obtain ⟨x1, y1⟩ := Option.isSome_iff_exists.1 he.via_version
    obtain ⟨x2, y2⟩ := Option.isSome_iff_exists.1 he.via_protocol
    obtain ⟨x3, y3⟩ := Option.isSome_iff_exists.1 he.via_host
    unfold SameVia via_to_str
    simp only [y1, y2, y3, Option.isNone_some, Bool.false_eq_true, or_self, if_false]
    exact ⟨_, rfl, rfl⟩
  · rw [if_pos rfl, et]
    exact hto

namespace Ex

/-- A client behind an address translator: RFC 2543 Via with an `rport` to be filled in. -/
def natVia : Via := { oldVia with via_params := [⟨"rport".toList, none⟩] }
def natInvite : Msg := { request "UDP" "INVITE" with vias := [natVia] }
def natAck : Msg := (ict_create_ack natInvite (response 486 "UDP" "INVITE")).getD {}

/-- The message as it arrives from a port. -/
def fromPort (m : Msg) (port : Int) : Msg :=
  ((fix_last_via_header (some m) "203.0.113.5".toList port).2).getD {}

/-- The ACK of an INVITE with a magic-cookie branch. -/
def newAck : Msg := (ict_create_ack (request "UDP" "INVITE") (response 486 "UDP" "INVITE")).getD {}

end Ex

open Ex in
/-- The hypotheses of `c115_ack_found` and `c115_old_partial` are met, on a server with two INVITEs;
the ACK of the first may even come from another port. -/
example : ∃ s, StackReach s ∧ (s.ids = [1, 2, 3] ∧
    ((osip_find_transaction s ⟨true, fromPort newAck 6000, 0⟩).map (·.map (·.transactionid))
      = some (some 1)) ∧
    ((osip_find_transaction s ⟨true, fromPort natAck 5062, 0⟩).map (·.map (·.transactionid))
      = some (some 3)) ∧
    ((osip_find_transaction s ⟨true, fromPort (request "UDP" "CANCEL") 5062, 0⟩).map
      (·.map (·.transactionid)) = some none)) :=
  stack_exists [.receive (fromPort (request "UDP" "INVITE") 5062) t0 t0,
    .receive (fromPort otherInvite 5062) t0 t0, .receive (fromPort natInvite 5062) t0 t0]
    (by decide +kernel)

open Ex in
/-- A response comes back with the address of the client in its Via. -/
example : ∃ s, StackReach s ∧ (s.ids = [1, 2] ∧
    ((osip_find_transaction s ⟨true, { response 486 "UDP" "INVITE" with vias := (fromPort (request "UDP" "INVITE") 5062).vias }, 0⟩).map
      (·.map (·.transactionid)) = some (some 2)) ∧
    ((osip_find_transaction s ⟨true, { response 200 "UDP" "CANCEL" with vias := (fromPort (request "UDP" "INVITE") 5062).vias }, 0⟩).map
      (·.map (·.transactionid)) = some none)) :=
  stack_exists [.create ⟨false, otherInvite, 0⟩ t0 t0, .create ⟨false, request "UDP" "INVITE", 0⟩ t0 t0]
    (by decide +kernel)

open Ex in
/-- **C115 is violated** for an RFC 2543 client behind an address translator. It asks for its port to
be filled in; the ACK leaves the translator from another port than the INVITE did. The whole Via is
compared, including the port filled in (src/osip2/osip_transaction.c:774,
src/osipparser2/osip_via.c:474-503), and the ACK is not found to belong to the INVITE. -/
theorem c115_violated : ∃ s, StackReach s ∧
    ict_create_ack natInvite (response 486 "UDP" "INVITE") = some natAck ∧
    Arrives natInvite (fromPort natInvite 5062) ∧ Arrives natAck (fromPort natAck 5063) ∧
    s.ists.map (·.topvia) = (fromPort natInvite 5062).vias ∧
    osip_find_transaction s ⟨true, fromPort natAck 5063, 0⟩ = some none ∧
    osip_find_transaction s ⟨true, fromPort natAck 5062, 0⟩ = some s.ists.head? := by
  obtain ⟨s, h1, h2⟩ := stack_exists [.receive (fromPort natInvite 5062) t0 t0]
    (P := fun s => s.ists.map (·.topvia) = (fromPort natInvite 5062).vias ∧
      (osip_find_transaction s ⟨true, fromPort natAck 5063, 0⟩).map (·.isNone) = some true ∧
      (osip_find_transaction s ⟨true, fromPort natAck 5062, 0⟩).map (·.isSome) = some true ∧
      s.ists.length = 1) (by decide +kernel)
  obtain ⟨h3, h4, h5, h6⟩ := h2
  refine ⟨s, h1, by decide +kernel, .inr ⟨"203.0.113.5".toList, 5062, by decide +kernel⟩, .inr ⟨"203.0.113.5".toList, 5063, by decide +kernel⟩, h3, ?_, ?_⟩
  · simp only [Option.map_eq_some_iff] at h4
    obtain ⟨x, hx, hn⟩ := h4
    cases x
    · exact hx
    · simp at hn
  · simp only [Option.map_eq_some_iff] at h5
    obtain ⟨x, hx, hn⟩ := h5
    cases x with
    | none => simp at hn
    | some e =>
      rw [hx]
      have hreq : (MsgEv.type ⟨true, fromPort natAck 5062, 0⟩).isIncomingReq = true := by decide +kernel
      have hk : searchKind ⟨true, fromPort natAck 5062, 0⟩ = some .IST := by decide +kernel
      have hc : (fromPort natAck 5062).cseq.isNone = false := by decide +kernel
      unfold osip_find_transaction at hx
      simp only [hc, Bool.false_eq_true, if_false, hk, Option.bind_eq_bind, Option.bind_some,
        osip_transaction_find, hreq, if_true, Stack.list] at hx
      obtain ⟨a, c, e1, -⟩ := findM_some hx
      rw [e1] at h6
      cases a with
      | nil => rw [e1]; rfl
      | cons y ys => simp at h6

end Osip
