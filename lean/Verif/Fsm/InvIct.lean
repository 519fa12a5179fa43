import Verif.Fsm.Inv

/-!
# Structural invariant of the INVITE client transaction (helper lemmas)
-/

namespace Osip


structure IctInv (t : Tr) : Prop where
  states : t.state = .ICT_PRE_CALLING ∨ t.state = .ICT_CALLING ∨ t.state = .ICT_PROCEEDING ∨
    t.state = .ICT_COMPLETED ∨ t.state = .ICT_TERMINATED
  pre : t.state = .ICT_PRE_CALLING → t.orig_request = none ∧ t.last_response = none
  orig : t.state ≠ .ICT_PRE_CALLING → ∃ r, t.orig_request = some r ∧ r.m.isRequest = true ∧
    r.m.sip_method = some "INVITE".toList ∧ r.m.req_uri.isSome = true
  noack : t.state ≠ .ICT_COMPLETED → t.state ≠ .ICT_TERMINATED → t.ack = none
  ack : t.state = .ICT_COMPLETED → t.ack.isSome = true
  isack : ∀ a, t.ack = some a → a.m.sip_method = some "ACK".toList
  last : t.state = .ICT_CALLING → t.last_response = none

theorem create_ack_method {o r a : Msg} (h : ict_create_ack o r = some a) :
    a.sip_method = some "ACK".toList ∧ a.req_uri.isSome = true ∧ a.isRequest = true := by
  unfold ict_create_ack at h
  simp only [Option.bind_eq_bind, Option.bind_eq_some_iff, Option.pure_def, Option.some.injEq] at h
  obtain ⟨_, _, _, _, _, _, _, _, _, _, _, _, _, _, _, _, rfl⟩ := h
  simp [Msg.isRequest]

theorem ictInv_exec {env t ev t' e r} (hp : IctInv t) (hk : t.ctx_type = .ICT) (hev : EvOk ev)
    (he : osip_transaction_execute env t ev = some (t', e, r)) : IctInv t' := by
  have hor := fun h => evOk_snd_invite hev h
  have hca := @create_ack_method
  have hp0 := hp
  obtain ⟨h1, h2, h3, h4, h5, h6, h7⟩ := hp
  fsm_exec he hk hs ht
  any_goals assumption
  all_goals (constructor <;> simp_all)
  all_goals grind

theorem ictInv_init {n1 n2 req t} (h : transactionInit .ICT n1 n2 req = some (.ok t)) :
    IctInv t := by
  obtain ⟨_, h1, h2, h3, h4⟩ := init_shape h
  constructor <;> simp_all

theorem reach_ictInv {O : Op → Prop} {w : World} (h : ReachO O .ICT w) : IctInv w.tr :=
  reach_inv (k := .ICT) (P := fun t _ => IctInv t) (fun _ _ _ _ h => ictInv_init h)
    (fun _ _ _ h => h) (fun _ _ _ _ _ _ _ h hk hev he => ictInv_exec h hk hev he) h

end Osip
