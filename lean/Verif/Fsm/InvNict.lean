import Verif.Fsm.Inv

/-!
# Structural invariant of the non-INVITE client transaction (helper lemmas)
-/

namespace Osip


structure NictInv (t : Tr) : Prop where
  states : t.state = .NICT_PRE_TRYING ∨ t.state = .NICT_TRYING ∨ t.state = .NICT_PROCEEDING ∨
    t.state = .NICT_COMPLETED ∨ t.state = .NICT_TERMINATED
  pre : t.state = .NICT_PRE_TRYING → t.orig_request = none ∧ t.last_response = none
  orig : t.state ≠ .NICT_PRE_TRYING → ∃ r, t.orig_request = some r ∧ r.m.isRequest = true ∧
    r.m.sip_method.isSome = true ∧ r.m.req_uri.isSome = true
  ack : t.ack = none
  last : t.state = .NICT_TRYING → t.last_response = none

theorem nictInv_exec {env t ev t' e r} (hp : NictInv t) (hk : t.ctx_type = .NICT) (hev : EvOk ev)
    (he : osip_transaction_execute env t ev = some (t', e, r)) : NictInv t' := by
  have hor := fun h => evOk_snd_request hev h
  have hp0 := hp
  obtain ⟨h1, h2, h3, h4, h5⟩ := hp
  fsm_exec he hk hs ht
  any_goals assumption
  all_goals (constructor <;> simp_all)
  all_goals grind

theorem nictInv_init {n1 n2 req t} (h : transactionInit .NICT n1 n2 req = some (.ok t)) :
    NictInv t := by
  obtain ⟨_, h1, h2, h3, h4⟩ := init_shape h
  constructor <;> simp_all

theorem reach_nictInv {O : Op → Prop} {w : World} (h : ReachO O .NICT w) : NictInv w.tr :=
  reach_inv (k := .NICT) (P := fun t _ => NictInv t) (fun _ _ _ _ h => nictInv_init h)
    (fun _ _ _ h => h) (fun _ _ _ _ _ _ _ h hk hev he => nictInv_exec h hk hev he) h

end Osip
