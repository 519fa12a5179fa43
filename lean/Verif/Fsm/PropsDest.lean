import Verif.Dest
import Verif.Fsm.Safe
import Verif.Fsm.Transport
import Verif.ParamSpec

/-!
# C31, C32: where responses and requests are sent
-/

set_option autoImplicit false

namespace Osip

/-! ## Specification -/

/-- The text says the port number. -/
def PortText (t : Str) (port : Int) : Prop := ∀ n, n < 2^31 → t = Nat.toDigits 10 n → port = n

/-- RFC 3261 18.2.2 and RFC 3581: where a response with this top Via goes. A maddr or received
parameter without a value (which the grammar does not allow) gives no host. -/
structure ResponseGoesTo (v : Via) (host : Option Str) (port : Int) : Prop where
  of_maddr : ∀ p, FirstNamed v.via_params "maddr".toList p → host = p.gvalue
  of_received : NoneNamed v.via_params "maddr".toList →
    ∀ p, FirstNamed v.via_params "received".toList p → host = p.gvalue
  of_host : NoneNamed v.via_params "maddr".toList → NoneNamed v.via_params "received".toList →
    host = v.host
  of_rport : ∀ t, ParamValue v.via_params "rport".toList t → PortText t port
  of_port : (∀ t, ¬ ParamValue v.via_params "rport".toList t) → ∀ t, v.port = some t → PortText t port
  of_default : (∀ t, ¬ ParamValue v.via_params "rport".toList t) → v.port = none → port = 5060

/-! ## C31 -/

theorem lower_maddr : "maddr".toList.map toLowerC = "maddr".toList := by decide
theorem lower_received : "received".toList.map toLowerC = "received".toList := by decide
theorem lower_rport : "rport".toList.map toLowerC = "rport".toList := by decide
theorem lower_lr : "lr".toList.map toLowerC = "lr".toList := by decide
theorem lower_obr : "x-obr".toList.map toLowerC = "x-obr".toList := by decide
theorem lower_obp : "x-obp".toList.map toLowerC = "x-obp".toList := by decide

theorem portText_atoi (t : Str) : PortText t (osip_atoi (some t)) := by
  intro n hn ht
  rw [ht]
  exact atoi_toDigits hn

theorem viaDestination_spec (v : Via) :
    ResponseGoesTo v (viaDestination v).1 (viaDestination v).2 where
  of_maddr := by
    intro p hp
    simp only [viaDestination, (paramByName_some lower_maddr).2 hp]
  of_received := by
    intro hn p hp
    simp only [viaDestination, (paramByName_none lower_maddr).2 hn,
      (paramByName_some lower_received).2 hp]
  of_host := by
    intro h1 h2
    simp only [viaDestination, (paramByName_none lower_maddr).2 h1,
      (paramByName_none lower_received).2 h2]
  of_rport := by
    intro t ht
    rw [paramValue_iff lower_rport] at ht
    simp only [viaDestination, ht]
    exact portText_atoi t
  of_port := by
    intro hn t ht
    have : (paramByName v.via_params "rport").bind (·.gvalue) = none := by
      rw [Option.eq_none_iff_forall_not_mem]
      intro x hx
      exact hn x ((paramValue_iff lower_rport).2 hx)
    simp only [viaDestination, this, ht]
    exact portText_atoi t
  of_default := by
    intro hn ht
    have : (paramByName v.via_params "rport").bind (·.gvalue) = none := by
      rw [Option.eq_none_iff_forall_not_mem]
      intro x hx
      exact hn x ((paramValue_iff lower_rport).2 hx)
    simp only [viaDestination, this, ht]

/-- The two places of the code that choose the destination of a response choose the same. -/
theorem get_destination_eq {m : Msg} {v : Via} (h : m.vias.head? = some v) :
    osip_response_get_destination m = viaDestination v := by
  unfold osip_response_get_destination viaDestination
  cases hv : m.vias with
  | nil => simp [hv] at h
  | cons x xs =>
    simp only [hv, List.head?_cons, Option.some.injEq] at h
    subst h
    simp only
    cases paramByName x.via_params "maddr" <;> cases paramByName x.via_params "received" <;>
      cases paramByName x.via_params "rport" <;> simp only [Option.bind_none, Option.bind_some]
    all_goals first
      | rfl
      | (rename_i r; cases r.gvalue <;> rfl)

/-- **C31.** The destination computed for a response is the one of RFC 3261 18.2.2 and RFC 3581. -/
theorem c31_get_destination {m : Msg} {v : Via} (h : m.vias.head? = some v) :
    ResponseGoesTo v (osip_response_get_destination m).1 (osip_response_get_destination m).2 := by
  rw [get_destination_eq h]
  exact viaDestination_spec v

/-- **C31, server transactions.** Everything a server transaction ever sent went there. -/
theorem c31_server_sends {k : Kind} (hk : k = .IST ∨ k = .NIST) {w : World} (h : Reach k w) :
    ∀ r host port, Eff.send r host port ∈ w.trace →
      ∃ v, r.m.vias.head? = some v ∧ ResponseGoesTo v host port := by
  have hexec : ∀ env t ev t' e i, t.ctx_type = k →
      osip_transaction_execute env t ev = some (t', e, i) →
      ∀ r host port, Eff.send r host port ∈ e →
        ∃ v, r.m.vias.head? = some v ∧ (host, port) = viaDestination v := by
    intro env t ev t' e i htk he r host port
    rcases hk with rfl | rfl
    · fsm_exec he htk hs ht
      all_goals
        simp only [List.mem_append, List.mem_cons, Eff.send.injEq, reduceCtorEq, false_or, or_false,
          List.not_mem_nil, freeOpt, dropMsg]
        repeat' split
        all_goals
          try simp only [List.mem_append, List.mem_cons, Eff.send.injEq, reduceCtorEq, false_or,
            or_false, List.not_mem_nil, false_implies, or_self]
        all_goals
          try (rintro ⟨rfl, rfl, rfl⟩; simp_all; done)
    · fsm_exec he htk hs ht
      all_goals
        simp only [List.mem_append, List.mem_cons, Eff.send.injEq, reduceCtorEq, false_or, or_false,
          List.not_mem_nil, freeOpt, dropMsg]
        repeat' split
        all_goals
          try simp only [List.mem_append, List.mem_cons, Eff.send.injEq, reduceCtorEq, false_or,
            or_false, List.not_mem_nil, false_implies, or_self]
        all_goals
          try (rintro ⟨rfl, rfl, rfl⟩; simp_all; done)
  refine reach_inv (P := fun _ tr => ∀ r host port, Eff.send r host port ∈ tr →
      ∃ v, r.m.vias.head? = some v ∧ ResponseGoesTo v host port) ?_ ?_ ?_ h
  · intro _ _ _ _ _ r host port hm
    cases hm
  · intro _ tr id h r host port hm
    rcases List.mem_append.1 hm with hm | hm
    · exact h r host port hm
    · simp at hm
  · intro env t tr ev t' e i h htk _ he r host port hm
    rcases List.mem_append.1 hm with hm | hm
    · exact h r host port hm
    · obtain ⟨v, h1, h2⟩ := hexec env t ev t' e i htk he r host port hm
      have hs := viaDestination_spec v
      rw [← h2] at hs
      exact ⟨v, h1, hs⟩

/-! ## C32 -/

/-- Port of a URI: its number, or 5060. -/
structure UriPort (u : Uri) (port : Int) : Prop where
  of_text : ∀ t, u.port = some t → PortText t port
  default : u.port = none → port = 5060

/-- The first Route header has a loose-routing URI `u`. -/
def LooseRoute (m : Msg) (u : Uri) : Prop :=
  ∃ r, m.routes.head? = some r ∧ r.url = some u ∧ ¬ NoneNamed u.url_params "lr".toList

/-- Where a request goes. -/
structure RequestGoesTo (m : Msg) (host : Option Str) (port : Int) : Prop where
  of_route : ∀ u, LooseRoute m u → host = u.host ∧ UriPort u port
  of_maddr : (∀ u, ¬ LooseRoute m u) → ∀ u v, m.req_uri = some u →
    ParamValue u.url_params "maddr".toList v → host = some v ∧ UriPort u port
  of_outbound : (∀ u, ¬ LooseRoute m u) → ∀ u h p, m.req_uri = some u →
    (∀ v, ¬ ParamValue u.url_params "maddr".toList v) →
    ParamValue u.url_params "x-obr".toList h → ParamValue u.url_params "x-obp".toList p →
    host = some h ∧ PortText p port
  of_uri : (∀ u, ¬ LooseRoute m u) → ∀ u, m.req_uri = some u →
    (∀ v, ¬ ParamValue u.url_params "maddr".toList v) →
    (∀ h p, ¬ (ParamValue u.url_params "x-obr".toList h ∧
      ParamValue u.url_params "x-obp".toList p)) →
    host = u.host ∧ UriPort u port

theorem uriPort_spec (u : Uri) :
    UriPort u (match u.port with | none => 5060 | some p => osip_atoi (some p)) where
  of_text := by intro t ht; rw [ht]; exact portText_atoi t
  default := by intro h; rw [h]

theorem paramValue_none {ps : List Param} {n : String} (hn : n.toList.map toLowerC = n.toList)
    (h : ∀ v, ¬ ParamValue ps n.toList v) : (paramByName ps n).bind (·.gvalue) = none := by
  rw [Option.eq_none_iff_forall_not_mem]
  intro x hx
  exact h x ((paramValue_iff hn).2 hx)

theorem requestDestination_spec {m : Msg} {host : Option Str} {port : Int}
    (h : requestDestination m = some (host, port)) : RequestGoesTo m host port := by
  have hloose : ∀ u, LooseRoute m u → host = u.host ∧ UriPort u port := by
    rintro u ⟨r, h1, h2, h3⟩
    have h4 : (paramByName u.url_params "lr").isNone = false := by
      cases hp : paramByName u.url_params "lr" with
      | none => exact absurd ((paramByName_none lower_lr).1 hp) h3
      | some p => rfl
    simp only [requestDestination, h1, h2, h4, Bool.false_eq_true, if_false, Option.bind_some,
      Option.some.injEq, Prod.mk.injEq] at h
    refine ⟨h.1.symm, ?_⟩
    rw [← h.2]
    exact uriPort_spec u
  have hnot : (∀ u, ¬ LooseRoute m u) → ∀ u, m.req_uri = some u →
      some (host, port) = (match (paramByName u.url_params "maddr").bind (·.gvalue),
        (paramByName u.url_params "x-obr").bind (·.gvalue),
        (paramByName u.url_params "x-obp").bind (·.gvalue) with
      | some h, _, _ => some (some h,
          match u.port with | none => 5060 | some p => osip_atoi (some p))
      | none, some h, some p => some (some h, osip_atoi (some p))
      | none, _, _ => some (u.host,
          match u.port with | none => 5060 | some p => osip_atoi (some p))) := by
    intro hn u hu
    cases hh : m.routes.head? with
    | none =>
      simp only [requestDestination, hh, hu, Option.bind_none] at h
      rw [← h]
      cases (paramByName u.url_params "maddr").bind (·.gvalue) <;>
        cases (paramByName u.url_params "x-obr").bind (·.gvalue) <;>
        cases (paramByName u.url_params "x-obp").bind (·.gvalue) <;> rfl
    | some r =>
      cases hru : r.url with
      | none =>
        simp only [requestDestination, hh, hru, hu, Option.bind_some] at h
        rw [← h]
        cases (paramByName u.url_params "maddr").bind (·.gvalue) <;>
          cases (paramByName u.url_params "x-obr").bind (·.gvalue) <;>
          cases (paramByName u.url_params "x-obp").bind (·.gvalue) <;> rfl
      | some u' =>
        have h4 : (paramByName u'.url_params "lr").isNone = true := by
          cases hp : paramByName u'.url_params "lr" with
          | none => rfl
          | some p =>
            refine absurd ⟨r, hh, hru, ?_⟩ (hn u')
            intro h5
            exact h5.not_first ((paramByName_some lower_lr).1 hp)
        simp only [requestDestination, hh, hru, hu, h4, if_true, Option.bind_none] at h
        rw [← h]
        cases (paramByName u.url_params "maddr").bind (·.gvalue) <;>
          cases (paramByName u.url_params "x-obr").bind (·.gvalue) <;>
          cases (paramByName u.url_params "x-obp").bind (·.gvalue) <;> rfl
  refine ⟨hloose, ?_, ?_, ?_⟩
  · intro hn u v hu hv
    have h' := hnot hn u hu
    rw [(paramValue_iff lower_maddr).1 hv] at h'
    simp only [Option.some.injEq, Prod.mk.injEq] at h'
    exact ⟨h'.1, h'.2 ▸ uriPort_spec u⟩
  · intro hn u hh p hu hv h1 h2
    have h' := hnot hn u hu
    rw [paramValue_none lower_maddr hv, (paramValue_iff lower_obr).1 h1,
      (paramValue_iff lower_obp).1 h2] at h'
    simp only [Option.some.injEq, Prod.mk.injEq] at h'
    exact ⟨h'.1, h'.2 ▸ portText_atoi p⟩
  · intro hn u hu hv h2
    have h' := hnot hn u hu
    rw [paramValue_none lower_maddr hv] at h'
    cases hobr : (paramByName u.url_params "x-obr").bind (·.gvalue) with
    | none =>
      simp only [hobr, Option.some.injEq, Prod.mk.injEq] at h'
      exact ⟨h'.1, h'.2 ▸ uriPort_spec u⟩
    | some a =>
      cases hobp : (paramByName u.url_params "x-obp").bind (·.gvalue) with
      | none =>
        simp only [hobr, hobp, Option.some.injEq, Prod.mk.injEq] at h'
        exact ⟨h'.1, h'.2 ▸ uriPort_spec u⟩
      | some b =>
        exact absurd ⟨(paramValue_iff lower_obr).2 hobr, (paramValue_iff lower_obp).2 hobp⟩ (h2 a b)

/-- The destination stored in a client transaction. -/
def Tr.destination (t : Tr) : Option Str × Int :=
  if t.ctx_type = .ICT then (t.ict.destination, t.ict.port) else (t.nict.destination, t.nict.port)

/-- **C32.** The destination chosen for a new client transaction. -/
theorem c32_new_transaction {k : Kind} (hk : k = .ICT ∨ k = .NICT) {n1 n2 : TimeVal} {req : Msg}
    {t : Tr} (h : transactionInit k n1 n2 req = some (.ok t)) :
    RequestGoesTo req t.destination.1 t.destination.2 := by
  rcases hk with rfl | rfl
  · obtain ⟨p, host, port, _, hd, rfl⟩ := init_ICT h
    exact requestDestination_spec hd
  · obtain ⟨p, host, port, _, hd, rfl⟩ := init_NICT h
    exact requestDestination_spec hd

/-- What a client transaction sends goes to its destination, which does not change if it names a
host. -/
theorem client_sends {k : Kind} (hk : k = .ICT ∨ k = .NICT) {env : Env} {t t' : Tr} {ev : Ev}
    {e : List Eff} {i : Int} (htk : t.ctx_type = k)
    (he : osip_transaction_execute env t ev = some (t', e, i)) {h : Str} {p : Int}
    (hd : t.destination = (some h, p)) :
    t'.destination = (some h, p) ∧
      ∀ r host port, Eff.send r host port ∈ e → host = some h ∧ port = p := by
  rcases hk with rfl | rfl
  · simp only [Tr.destination, htk, if_true, Prod.mk.injEq] at hd ⊢
    obtain ⟨hd1, hd2⟩ := hd
    fsm_exec he htk hs ht
    all_goals
      simp only [List.mem_append, List.mem_cons, Eff.send.injEq, reduceCtorEq, false_or, or_false,
        List.not_mem_nil, freeOpt, dropMsg, htk, if_true, hd1, hd2, and_self, true_and]
      repeat' split
      all_goals
        try simp only [List.mem_append, List.mem_cons, Eff.send.injEq, reduceCtorEq, false_or,
          or_false, List.not_mem_nil, false_implies, or_self]
    all_goals try grind [ictAckDestination]
  · simp only [Tr.destination, htk, reduceCtorEq, if_false, Prod.mk.injEq] at hd ⊢
    obtain ⟨hd1, hd2⟩ := hd
    fsm_exec he htk hs ht
    all_goals
      simp only [List.mem_append, List.mem_cons, Eff.send.injEq, reduceCtorEq, false_or, or_false,
        List.not_mem_nil, freeOpt, dropMsg, htk, if_false, hd1, hd2, and_self, true_and]
      repeat' split
      all_goals
        try simp only [List.mem_append, List.mem_cons, Eff.send.injEq, reduceCtorEq, false_or,
          or_false, List.not_mem_nil, false_implies, or_self]
    all_goals try grind

/-- **C32, everything sent.** All that a client transaction ever sends, first copies,
retransmissions and ACKs, goes to the destination chosen for its request, if that names a host. -/
theorem c32_client_sends {k : Kind} (hk : k = .ICT ∨ k = .NICT) {req : Msg} {w : World}
    (h : ReachFrom (· = req) (fun _ => True) k w) :
    ∃ host port, RequestGoesTo req host port ∧ (host.isSome = true →
      ∀ r a b, Eff.send r a b ∈ w.trace → a = host ∧ b = port) := by
  obtain ⟨n1, n2, req', t, ops, hR, hi, hr, ho⟩ := h
  subst hR
  have hg := c32_new_transaction hk hi
  refine ⟨_, _, hg, ?_⟩
  intro hsome
  obtain ⟨hst, hh⟩ := Option.isSome_iff_exists.1 hsome
  have hdest : t.destination = (some hst, t.destination.2) := by rw [← hh]
  generalize t.destination.2 = p at hdest
  rw [hh]
  have key : ∀ ops (w w' : World), w.tr.ctx_type = k → w.tr.destination = (some hst, p) →
      (∀ r a b, Eff.send r a b ∈ w.trace → a = some hst ∧ b = p) → w.run ops = some w' →
      ∀ r a b, Eff.send r a b ∈ w'.trace → a = some hst ∧ b = p := by
    intro ops
    induction ops with
    | nil => intro w w' _ _ h3 h; simp [World.run] at h; exact h ▸ h3
    | cons o os ih =>
      intro w w' hk1 h2 h3 h
      simp only [World.run, Option.bind_eq_bind, Option.bind_eq_some_iff] at h
      obtain ⟨w1, h4, h5⟩ := h
      rcases step_cases h4 with ⟨q, rfl, _⟩ | ⟨ev, m, _, _, _, rfl⟩ |
        ⟨_, _, _, ev, q, t1, e, r, _, hqq, he, rfl⟩
      · exact ih _ w' (by exact hk1) (by exact h2) (by exact h3) h5
      · refine ih _ w' (by exact hk1) (by exact h2) ?_ h5
        intro r a b hm
        rcases List.mem_append.1 hm with hm | hm
        · exact h3 r a b hm
        · simp at hm
      · obtain ⟨g1, g2⟩ := client_sends hk hk1 he h2
        refine ih _ w' ((exec_ctx_type he).trans hk1) g1 ?_ h5
        intro r a b hm
        rcases List.mem_append.1 hm with hm | hm
        · exact h3 r a b hm
        · exact g2 r a b hm
  have hk0 : (World.init t).tr.ctx_type = k := by
    rcases hk with rfl | rfl
    · obtain ⟨_, _, _, _, _, rfl⟩ := init_ICT hi; rfl
    · obtain ⟨_, _, _, _, _, rfl⟩ := init_NICT hi; rfl
  exact key ops _ w hk0 hdest (by intro r a b hm; cases hm) hr

/-! ## Examples -/

open Ex

/-- `ParamValue` and `LooseRoute` are met by concrete headers. -/
example : ParamValue [⟨"Branch".toList, some "x".toList⟩, ⟨"RPort".toList, some "5062".toList⟩]
    "rport".toList "5062".toList :=
  ⟨⟨"RPort".toList, some "5062".toList⟩, (paramByName_some lower_rport).1 (by decide), rfl⟩

example : osip_response_get_destination { response 200 "UDP" "INVITE" with
    vias := [{ via "UDP" with port := some "5070".toList, via_params :=
      [⟨"rport".toList, some "5062".toList⟩, ⟨"Received".toList, some "10.9.9.9".toList⟩] }] }
    = (some "10.9.9.9".toList, 5062) := by decide

/-- An INVITE over a loose route, with a 486 answered: the INVITE and the ACK go to the route. -/
example : ∃ w, Reach .ICT w ∧ (w.trace.filterMap (fun
      | .send r h p => some (r.m.sip_method, h, p)
      | _ => none) =
    [(some "INVITE".toList, some "proxy".toList, 5090),
     (some "ACK".toList, some "proxy".toList, 5090)]) :=
  reach_exists { request "UDP" "INVITE" with routes := [{ url := some { uri with
      host := some "proxy".toList, port := some "5090".toList,
      url_params := [⟨"lr".toList, none⟩] } }] }
    [.outgoing { request "UDP" "INVITE" with routes := [{ url := some { uri with
      host := some "proxy".toList, port := some "5090".toList,
      url_params := [⟨"lr".toList, none⟩] } }] }, .exec 0 t0 t0,
     .incoming (response 486 "UDP" "INVITE"), .exec 0 t0 t0] (by decide +kernel)

end Osip
