import Verif.Fsm.PropsTimers

/-!
# C65: how long a transaction waits for retransmissions before it ends
-/

set_option autoImplicit false

namespace Osip

/-- The waiting period of RFC 3261 table 4, in milliseconds: timers D, K, I and J absorb
retransmissions on an unreliable transport and are zero on a reliable one; H is 64*T1. -/
def waitOf (reliable : Bool) : State → Option (EvType × Int)
  | .ICT_COMPLETED => some (.TIMEOUT_D, if reliable then 0 else 32000)
  | .NICT_COMPLETED => some (.TIMEOUT_K, if reliable then 0 else 5000)
  | .IST_COMPLETED => some (.TIMEOUT_H, 32000)
  | .IST_CONFIRMED => some (.TIMEOUT_I, if reliable then 0 else 5000)
  | .NIST_COMPLETED => some (.TIMEOUT_J, if reliable then 0 else 32000)
  | _ => none

/-- The request was sent over a transport of this sort. -/
def Over (reliable : Bool) (m : Msg) : Prop :=
  if reliable = true then Reliable m else Unreliable m

/-- The timer lengths as set when the transaction was created. -/
def Lengths (b : Bool) (k : Kind) (t : Tr) : Prop :=
  t.state ≠ terminatedOf k →
  match k with
  | .ICT => t.ict.timer_d_length = if b then 0 else 32000
  | .NICT => t.nict.timer_k_length = if b then 0 else 5000
  | .IST => t.ist.timer_h_length = 32000 ∧ t.ist.timer_i_length = if b then 0 else 5000
  | .NIST => t.nist.timer_j_length = if b then 0 else 32000

theorem over_isReliable {b : Bool} {m : Msg} {p : Str} (h : Over b m) (hp : m.transport = some p) :
    isReliable p = b := by
  cases b
  · obtain ⟨q, hq, hn⟩ := h
    rw [hp] at hq; cases hq
    rw [← isReliable_iff] at hn; simpa using hn
  · obtain ⟨q, hq, hn⟩ := h
    rw [hp] at hq; cases hq
    rwa [← isReliable_iff] at hn

theorem lengths_init {b : Bool} {k : Kind} {n1 n2 req t} (ho : Over b req)
    (h : transactionInit k n1 n2 req = some (.ok t)) : Lengths b k t := by
  intro _
  cases k
  · obtain ⟨p, _, _, hp, _, rfl⟩ := init_ICT h
    simp [over_isReliable ho hp]
  · obtain ⟨p, hp, rfl⟩ := init_IST h
    simp [over_isReliable ho hp]
  · obtain ⟨p, _, _, hp, _, rfl⟩ := init_NICT h
    simp [over_isReliable ho hp]
  · obtain ⟨p, hp, rfl⟩ := init_NIST h
    simp [over_isReliable ho hp]

theorem lengths_exec {b : Bool} {env t ev t' e r} (hp : Lengths b t.ctx_type t)
    (he : osip_transaction_execute env t ev = some (t', e, r)) : Lengths b t.ctx_type t' := by
  unfold Lengths at *
  cases hk : t.ctx_type
  all_goals
    simp only [hk, terminatedOf] at hp ⊢
    fsm_exec he hk hs ht
    all_goals first
      | (intro h; exact absurd rfl h)
      | (intro _; exact hp (by rw [hs]; decide))
      | exact hp
      | (intro _; have h := hp (by rw [hs]; decide); simpa using h)
      | (intro _; have h := hp (by rw [hs]; decide); rw [← h]; dsimp only
         repeat' split
         all_goals rfl)

theorem reach_lengths {b : Bool} {k : Kind} {w : World} (h : ReachFrom (Over b) (fun _ => True) k w) :
    w.tr.ctx_type = k ∧ Lengths b k w.tr := by
  refine reachFrom_inv_log (P := fun t _ l => t.ctx_type = k ∧ Lengths b k t) ?_ ?_ ?_ h
  · intro n1 n2 req t hu hi
    exact ⟨(init_shape hi).1, lengths_init hu hi⟩
  · intro _ _ _ _ h
    exact h
  · rintro env t tr l ev t' e r ⟨rfl, hp⟩ hk _ he
    exact ⟨exec_ctx_type he, lengths_exec hp he⟩

theorem wait_exec {b : Bool} {env t ev t' e r} (hp : Lengths b t.ctx_type t)
    (hin : env.now1.Normal) (hin2 : env.now2 = env.now1)
    (he : osip_transaction_execute env t ev = some (t', e, r)) (hne : t'.state ≠ t.state)
    {x : EvType} {ms : Int} (hw : waitOf b t'.state = some (x, ms)) :
    (t'.deadline x).micros = env.now1.micros + ms * 1000 ∧ (t'.deadline x).Normal := by
  have add := fun (n : Int) (h0 : 0 ≤ n) (h1 : n < 1000000) => c27_add_exact_partial hin h0 h1
  unfold Lengths at hp
  cases hk : t.ctx_type
  all_goals
    simp only [hk, terminatedOf] at hp
    fsm_exec he hk hs ht
    all_goals first
      | (exact absurd rfl hne)
      | (exact absurd hs.symm hne)
      | (simp [waitOf, hs] at hw; done)
      | skip
  all_goals
    simp only [waitOf, hs, Option.some.injEq, Prod.mk.injEq, reduceCtorEq] at hw
    obtain ⟨rfl, rfl⟩ := hw
    have hp := hp (by rw [hs]; decide)
    simp only [Tr.deadline, hin2]
    cases b <;> simp only [hp, hs, if_true, if_false, Bool.false_eq_true, reduceCtorEq] <;> first
      | exact add 0 (by decide) (by decide)
      | exact add 5000 (by decide) (by decide)
      | exact add 32000 (by decide) (by decide)
      | (simp; first
        | exact add 0 (by decide) (by decide)
        | exact add 5000 (by decide) (by decide)
        | exact add 32000 (by decide) (by decide))

/-- **C65.** When a transaction enters a waiting state - after a final response, or for a server
INVITE transaction after the ACK - the timer ending that state is set to exactly the RFC 3261 value
after the moment of entering: on an unreliable transport 32 s (D), 5 s (K, I), 64*T1 (H, J); on a
reliable one zero (D, K, I, J), and 64*T1 for H. `reliable` is the transport named by the top Via of
the request the transaction was created for. -/
theorem c65_wait {reliable : Bool} {k : Kind} {w w' : World}
    (h : ReachFrom (Over reliable) (fun _ => True) k w) {send : Int} {now : TimeVal}
    (hn : now.Normal) (hx : w.step (.exec send now now) = some w')
    (hne : w'.tr.state ≠ w.tr.state) {x : EvType} {ms : Int}
    (hw : waitOf reliable w'.tr.state = some (x, ms)) :
    (w'.tr.deadline x).micros = now.micros + ms * 1000 := by
  obtain ⟨rfl, hl⟩ := reach_lengths h
  rcases step_cases hx with ⟨q, rfl, _⟩ | ⟨_, _, _, _, h3, _⟩ |
    ⟨s, n1, n2, ev, q, t, e, r, ho, hq, he, rfl⟩
  · exact absurd rfl hne
  · rcases h3 with h3 | h3 <;> cases h3
  · cases ho
    exact (wait_exec hl hn rfl he hne hw).1

/-- Entering COMPLETED over UDP at 1001.25 s: timer D is set to 1033.25 s. -/
example : (Ex.go .ICT Ex.invite [.outgoing Ex.invite, Ex.x,
      .incoming (Ex.response 486 "UDP" "INVITE"), .exec 0 ⟨1001, 250000⟩ ⟨1001, 250000⟩]).map
      (fun w => (w.tr.state, w.tr.ict.timer_d_start)) =
    some (.ICT_COMPLETED, ⟨1033, 250000⟩) := by decide +kernel

/-- Over TCP it is due at once. -/
example : (Ex.go .ICT Ex.inviteTcp [.outgoing Ex.inviteTcp, Ex.x,
      .incoming (Ex.response 486 "TCP" "INVITE"), .exec 0 ⟨1001, 250000⟩ ⟨1001, 250000⟩]).map
      (fun w => (w.tr.state, w.tr.ict.timer_d_start)) =
    some (.ICT_COMPLETED, ⟨1001, 250000⟩) := by decide +kernel

/-- A server transaction over UDP: J is set 32 s after the final response. -/
example : (Ex.go .NIST Ex.options [.incoming Ex.options, Ex.x,
      .outgoing (Ex.response 200 "UDP" "OPTIONS"), .exec 0 ⟨1001, 250000⟩ ⟨1001, 250000⟩]).map
      (fun w => (w.tr.state, w.tr.nist.timer_j_start)) =
    some (.NIST_COMPLETED, ⟨1033, 250000⟩) := by decide +kernel

end Osip
