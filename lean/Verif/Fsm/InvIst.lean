import Verif.Fsm.Inv

/-!
# Structural invariant of the INVITE server transaction (helper lemmas)
-/

namespace Osip


structure IstInv (t : Tr) : Prop where
  states : t.state = .IST_PRE_PROCEEDING ∨ t.state = .IST_PROCEEDING ∨ t.state = .IST_COMPLETED ∨
    t.state = .IST_CONFIRMED ∨ t.state = .IST_TERMINATED
  pre : t.state = .IST_PRE_PROCEEDING → t.orig_request = none ∧ t.last_response = none
  orig : t.state ≠ .IST_PRE_PROCEEDING → ∃ r, t.orig_request = some r
  noack : t.state ≠ .IST_CONFIRMED → t.state ≠ .IST_TERMINATED → t.ack = none
  last : t.state = .IST_COMPLETED ∨ t.state = .IST_CONFIRMED → ∃ r, t.last_response = some r ∧
    r.m.vias ≠ [] ∧ r.m.isRequest = false ∧ r.m.isStatus 1 = false ∧ r.m.isStatus 2 = false
  prov : t.state = .IST_PROCEEDING → ∀ r, t.last_response = some r → r.m.vias ≠ [] ∧
    r.m.isRequest = false ∧ r.m.isStatus 1 = true

theorem istInv_exec {env t ev t' e r} (hp : IstInv t) (hk : t.ctx_type = .IST) (hev : EvOk ev)
    (he : osip_transaction_execute env t ev = some (t', e, r)) : IstInv t' := by
  have hst := evOk_status hev
  have hor := fun h => evOk_rcv_invite hev h
  have hp0 := hp
  obtain ⟨h1, h2, h3, h4, h5, h6⟩ := hp
  fsm_exec he hk hs ht
  any_goals assumption
  all_goals (constructor <;> simp_all)
  all_goals grind

theorem istInv_init {n1 n2 req t} (h : transactionInit .IST n1 n2 req = some (.ok t)) :
    IstInv t := by
  obtain ⟨_, h1, h2, h3, h4⟩ := init_shape h
  constructor <;> simp_all

theorem reach_istInv {O : Op → Prop} {w : World} (h : ReachO O .IST w) : IstInv w.tr :=
  reach_inv (k := .IST) (P := fun t _ => IstInv t) (fun _ _ _ _ h => istInv_init h)
    (fun _ _ _ h => h) (fun _ _ _ _ _ _ _ h hk hev he => istInv_exec h hk hev he) h

end Osip
