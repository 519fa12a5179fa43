import Verif.Fsm.Inv

/-!
# Structural invariant of the non-INVITE server transaction (helper lemmas)
-/

namespace Osip


structure NistInv (t : Tr) : Prop where
  states : t.state = .NIST_PRE_TRYING ∨ t.state = .NIST_TRYING ∨ t.state = .NIST_PROCEEDING ∨
    t.state = .NIST_COMPLETED ∨ t.state = .NIST_TERMINATED
  pre : t.state = .NIST_PRE_TRYING → t.orig_request = none ∧ t.last_response = none
  orig : t.state ≠ .NIST_PRE_TRYING → ∃ r, t.orig_request = some r
  ack : t.ack = none
  trying : t.state = .NIST_TRYING → t.last_response = none
  last : t.state = .NIST_COMPLETED → ∃ r, t.last_response = some r ∧
    r.m.vias ≠ [] ∧ r.m.isRequest = false ∧ r.m.isStatus 1 = false
  prov : t.state = .NIST_PROCEEDING → ∃ r, t.last_response = some r ∧ r.m.vias ≠ [] ∧
    r.m.isRequest = false ∧ r.m.isStatus 1 = true

theorem nistInv_exec {env t ev t' e r} (hp : NistInv t) (hk : t.ctx_type = .NIST) (hev : EvOk ev)
    (he : osip_transaction_execute env t ev = some (t', e, r)) : NistInv t' := by
  have hst := evOk_status hev
  have hor := fun h => evOk_rcv_request hev h
  have hp0 := hp
  obtain ⟨h1, h2, h3, h4, h5, h6, h7⟩ := hp
  fsm_exec he hk hs ht
  any_goals assumption
  all_goals (constructor <;> simp_all)
  all_goals grind

theorem nistInv_init {n1 n2 req t} (h : transactionInit .NIST n1 n2 req = some (.ok t)) :
    NistInv t := by
  obtain ⟨_, h1, h2, h3, h4⟩ := init_shape h
  constructor <;> simp_all

theorem reach_nistInv {O : Op → Prop} {w : World} (h : ReachO O .NIST w) : NistInv w.tr :=
  reach_inv (k := .NIST) (P := fun t _ => NistInv t) (fun _ _ _ _ h => nistInv_init h)
    (fun _ _ _ h => h) (fun _ _ _ _ _ _ _ h hk hev he => nistInv_exec h hk hev he) h

end Osip
