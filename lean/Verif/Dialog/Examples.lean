import Verif.Dialog.Props

/-!
# Concrete dialogs: the hypotheses of the theorems are satisfiable, and where the code departs from
# RFC 3261
-/

set_option autoImplicit false

namespace Osip.DialogEx

def tag (v : String) : Param := ⟨"tag".toList, some v.toList⟩
def uri (host : String) : Uri := { scheme := some "sip".toList, host := some host.toList }
def party (host : String) (ps : List Param) : From := { url := some (uri host), gen_params := ps }
def rr (host : String) : From := party host []

def cid : CallId := { number := some "77".toList, host := some "a.org".toList }
def cs : CSeq := { method := some "INVITE".toList, number := some "12".toList }

def invite : Msg :=
  { sip_method := some "INVITE".toList, req_uri := some (uri "b.org")
    from_ := some (party "a.org" [tag "f1"]), to := some (party "b.org" [])
    call_id := some cid, cseq := some cs
    record_routes := [rr "p2", rr "p1"], contacts := [rr "10.0.0.1"] }

def answer (code : Int) : Msg :=
  { status_code := code
    from_ := some (party "a.org" [tag "f1"]), to := some (party "b.org" [tag "t1"])
    call_id := some cid, cseq := some cs
    record_routes := [rr "p2", rr "p1"], contacts := [rr "10.0.0.2"] }

/-- The caller's dialog made from a response. -/
def caller (code : Int) : Dialog :=
  match dialog_init_as_uac (answer code) with
  | some (.ok d) => d
  | _ => {}

/-- The callee's dialog made from the 200. -/
def callee : Dialog :=
  match dialog_init_as_uas invite (answer 200) with
  | some (.ok d) => d
  | _ => {}

theorem caller_ok : dialog_init_as_uac (answer 180) = some (.ok (caller 180)) := by decide +kernel
theorem caller200_ok : dialog_init_as_uac (answer 200) = some (.ok (caller 200)) := by decide +kernel
theorem callee_ok : dialog_init_as_uas invite (answer 200) = some (.ok callee) := by decide +kernel

example : (caller 180).route_set = [rr "p1", rr "p2"] := c33_caller caller_ok
example : callee.route_set = [rr "p2", rr "p1"] := c33_callee_partial callee_ok
example : (caller 180).state = .EARLY ∧ (caller 200).state = .CONFIRMED := by decide +kernel

/-- A 200 with another proxy replaces the early route set; afterwards nothing does. -/
example : let d := (update_route_set_as_uac (caller 180) { answer 200 with record_routes := [rr "p9", rr "p8"] })
    d.1 = 0 ∧ d.2.route_set = [rr "p8", rr "p9"] ∧
    (d.2.after [.routeSetUac (answer 180), .routeSetUas invite, .tagUac (answer 200)]).route_set
      = [rr "p8", rr "p9"] := by decide +kernel

example : ((caller 200).after [.routeSetUac { answer 180 with record_routes := [] }]).route_set
    = [rr "p1", rr "p2"] := by
  rw [c33_fixed _ (by decide +kernel) (by simp)]; decide +kernel

/-- The tag of a dialog made from a 100 without To tag is set once, then kept. -/
example : let d0 : Dialog := { caller 180 with remote_tag := none }
    (update_tag_as_uac d0 (answer 200)).1 = 0 ∧
    (update_tag_as_uac d0 (answer 200)).2.remote_tag = some "t1".toList ∧
    (update_tag_as_uac (caller 180) (answer 200)).1 = OSIP_WRONG_STATE := by decide +kernel

example : ((caller 180).after [.tagUac { answer 200 with to := some (party "b.org" [tag "t2"]) }]).remote_tag
    = some "t1".toList := c34_never_changes _ (by decide +kernel)

theorem hasTag_ex (h v : String) : HasTag (party h [tag v]) v.toList := by
  rw [hasTag_iff]; rfl

/-- A response of the dialog is recognised; one with another To tag (a forked branch) is not. -/
example : dialog_match_as_uac (some (caller 180)) (answer 200) = some 0 ∧
    dialog_match_as_uac (some (caller 180))
      { answer 200 with to := some (party "b.org" [tag "t2"]) } ≠ some 0 := by decide +kernel

example : dialog_match_as_uac (some (caller 180)) (answer 200) = some 0 :=
  c63_recognises (f := party "a.org" [tag "f1"]) (t := party "b.org" [tag "t1"])
    (cid := "77@a.org".toList) caller_ok rfl rfl (hasTag_ex _ _) (hasTag_ex _ _)
    ⟨cid, "77".toList, rfl, rfl, Or.inr ⟨"a.org".toList, rfl, rfl⟩⟩
    rfl rfl (hasTag_ex _ _) (hasTag_ex _ _)
    ⟨cid, "77".toList, rfl, rfl, Or.inr ⟨"a.org".toList, rfl, rfl⟩⟩

/-- A BYE inside the callee's dialog. -/
def bye (totag : String) : Msg :=
  { sip_method := some "BYE".toList, req_uri := some (uri "b.org")
    from_ := some (party "a.org" [tag "f1"]), to := some (party "b.org" [tag totag])
    call_id := some cid, cseq := some { cs with method := some "BYE".toList } }

example : dialog_match_as_uas (some callee) (bye "t1") = some 0 := by decide +kernel
example : dialog_match_as_uas (some callee) { bye "t1" with from_ := some (party "a.org" [tag "zz"]) }
    ≠ some 0 := by decide +kernel

/-- Without a remote tag the parties are compared. -/
example : dialog_match_as_uas (some { callee with remote_tag := none }) (bye "t1") = some 0 ∧
    dialog_match_as_uas (some { callee with remote_tag := none })
      { bye "t1" with from_ := some (party "c.org" [tag "f1"]) } ≠ some 0 ∧
    dialog_match_as_uac (some { caller 180 with remote_tag := none }) (answer 200) = some 0 ∧
    dialog_match_as_uac (some { caller 180 with remote_tag := none })
      { answer 200 with to := some (party "c.org" [tag "t1"]) } ≠ some 0 := by decide +kernel

end DialogEx
open DialogEx

/-- C33 fails for the callee: with a response in which the Record-Route headers of the request were
not copied the route set is not that of the request. -/
theorem c33_violated : ∃ invite response d, dialog_init_as_uas invite response = some (.ok d) ∧
    d.route_set ≠ invite.record_routes := by
  refine ⟨invite, { answer 200 with record_routes := [] },
    { callee with route_set := [] }, ?_, ?_⟩ <;> decide +kernel

/-- C35 fails: a request whose To tag is not the local tag of the dialog is accepted. -/
theorem c35_violated : ∃ invite response d m t v, dialog_init_as_uas invite response = some (.ok d) ∧
    m.to = some t ∧ HasTag t v ∧ d.local_tag ≠ some v ∧
    dialog_match_as_uas (some d) m = some 0 := by
  refine ⟨invite, answer 200, callee, bye "other", party "b.org" [tag "other"], "other".toList,
    callee_ok, rfl, hasTag_ex _ _, ?_, ?_⟩ <;> decide +kernel

/-- A request whose From has `;tag` without a value makes `osip_dialog_match_as_uas` call `strcmp`
on a NULL pointer. -/
theorem c35_null_dereference : ∃ invite response d m,
    dialog_init_as_uas invite response = some (.ok d) ∧ dialog_match_as_uas (some d) m = none := by
  refine ⟨invite, answer 200, callee,
    { bye "t1" with from_ := some (party "a.org" [⟨"tag".toList, none⟩]) }, callee_ok, ?_⟩
  decide +kernel

/-- The same for a response whose To has `;tag` without a value. -/
theorem c36_null_dereference : ∃ response d m,
    dialog_init_as_uac response = some (.ok d) ∧ dialog_match_as_uac (some d) m = none := by
  refine ⟨answer 200, caller 200,
    { answer 200 with to := some (party "b.org" [⟨"tag".toList, none⟩]) }, caller200_ok, ?_⟩
  decide +kernel

end Osip
