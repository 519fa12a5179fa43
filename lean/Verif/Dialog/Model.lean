import Verif.Hdr

/-!
# Dialogs (src/osip2/osip_dialog.c)

Every function returns `none` when the C code would dereference a NULL pointer. Allocation is
assumed to succeed (so `OSIP_NOMEM` never occurs) and tracing is left out.
-/

set_option autoImplicit false

namespace Osip

deriving instance DecidableEq for Except

/-- `CALLER` and `CALLEE` of `osip_dialog_type_t` (include/osip2/osip_dialog.h:45-50). -/
inductive DialogType
  | CALLER | CALLEE
deriving DecidableEq, Repr, Inhabited

/-- The dialog states of `state_t` (include/osip2/osip.h:88-91). -/
inductive DialogState
  | EARLY | CONFIRMED | CLOSED
deriving DecidableEq, Repr, Inhabited

/-- `osip_dialog_t` (include/osip2/osip_dialog.h:60-77), without the application's
`your_instance`. -/
structure Dialog where
  call_id : Option Str := none
  local_tag : Option Str := none
  remote_tag : Option Str := none
  line_param : Option Str := none
  route_set : List From := []
  local_cseq : Int := 0
  remote_cseq : Int := 0
  remote_uri : Option From := none
  local_uri : Option From := none
  remote_contact_uri : Option From := none
  secure : Int := 0
  type : DialogType := .CALLER
  state : DialogState := .EARLY
deriving DecidableEq, Repr, Inhabited

/-- The replacement of the remote target by a clone of the first Contact, the common part of
`osip_dialog_update_route_set_as_uas` and `…_as_uac` (src/osip2/osip_dialog.c:47-57 and 84-94).
The Boolean tells whether cloning succeeded. -/
def replaceContact (dlg : Dialog) (msg : Msg) : Bool × Dialog :=
  match msg.contacts with
  | [] => (true, dlg)
  | c :: _ =>
    match fromClone (some c) with
    | none => (false, { dlg with remote_contact_uri := none })
    | some c' => (true, { dlg with remote_contact_uri := some c' })

/-- `osip_dialog_update_route_set_as_uas` (src/osip2/osip_dialog.c:36-60). The code returned by a
failing `osip_contact_clone` is that of `osip_uri_clone`, `OSIP_BADPARAMETER`
(src/osipparser2/osip_uri.c:745-748). -/
def update_route_set_as_uas (dlg : Dialog) (invite : Msg) : Int × Dialog :=
  match replaceContact dlg invite with
  | (false, d) => (OSIP_BADPARAMETER, d)
  | (true, d) => (OSIP_SUCCESS, d)

/-- `osip_dialog_update_osip_cseq_as_uas` (src/osip2/osip_dialog.c:62-72). -/
def update_osip_cseq_as_uas (dlg : Dialog) (invite : Msg) : Int × Dialog :=
  match invite.cseq with
  | none => (OSIP_BADPARAMETER, dlg)
  | some cs => match cs.number with
    | none => (OSIP_BADPARAMETER, dlg)
    | some n => (OSIP_SUCCESS, { dlg with remote_cseq := osip_atoi (some n) })

/-- The loop cloning Record-Route headers, each put at the front (`osip_list_add (…, 0)`),
src/osip2/osip_dialog.c:104-119 and 356-370 with `invite == NULL`. -/
def addFront (set : List From) : List From → Bool × List From
  | [] => (true, set)
  | rr :: rest => match fromClone (some rr) with
    | none => (false, set)
    | some rr' => addFront (rr' :: set) rest

/-- The same loop with `osip_list_add (…, -1)` (src/osip2/osip_dialog.c:356-370 with an invite). -/
def addBack (set : List From) : List From → Bool × List From
  | [] => (true, set)
  | rr :: rest => match fromClone (some rr) with
    | none => (false, set)
    | some rr' => addBack (set ++ [rr']) rest

/-- `osip_dialog_update_route_set_as_uac` (src/osip2/osip_dialog.c:75-126). -/
def update_route_set_as_uac (dlg : Dialog) (response : Msg) : Int × Dialog :=
  match replaceContact dlg response with
  | (false, d) => (OSIP_BADPARAMETER, d)
  | (true, d) =>
    let d := if d.state = .EARLY ∧ d.route_set.length > 0 then { d with route_set := [] } else d
    let (ok, d) :=
      if d.state = .EARLY ∧ d.route_set.length = 0 then
        let (ok, l) := addFront d.route_set response.record_routes
        (ok, { d with route_set := l })
      else (true, d)
    if !ok then (OSIP_BADPARAMETER, d)
    else if response.isStatus 2 then (OSIP_SUCCESS, { d with state := .CONFIRMED })
    else (OSIP_SUCCESS, d)

/-- `osip_dialog_update_tag_as_uac` (src/osip2/osip_dialog.c:128-153). -/
def update_tag_as_uac (dlg : Dialog) (response : Msg) : Int × Dialog :=
  match response.to with
  | none => (OSIP_BADPARAMETER, dlg)
  | some to =>
    if dlg.remote_tag.isSome then (OSIP_WRONG_STATE, dlg)
    else match paramByName to.gen_params "tag" with
      | none => (OSIP_SUCCESS, { dlg with remote_tag := none })
      | some p => (OSIP_SUCCESS, { dlg with remote_tag := p.gvalue })

/-- `osip_dialog_set_state` (src/osip2/osip_dialog.c:28-32). -/
def dialog_set_state (dlg : Dialog) (st : DialogState) : Dialog := { dlg with state := st }

/-- Comparison of the URIs at the end of the two match functions. -/
def compareBoth (a b c d : Option From) : Int :=
  if from_compare a b = 0 ∧ from_compare c d = 0 then OSIP_SUCCESS else OSIP_UNDEFINED_ERROR

/-- `osip_dialog_match_as_uac` (src/osip2/osip_dialog.c:155-228). -/
def dialog_match_as_uac (dlg : Option Dialog) (answer : Msg) : Option Int :=
  match dlg with
  | none => some OSIP_BADPARAMETER
  | some dlg =>
    match dlg.call_id, answer.call_id, answer.from_, answer.to with
    | some cid, some acid, some from_, some to =>
      match call_id_to_str (some acid) with
      | .error i => some i
      | .ok tmp =>
        if cid ≠ tmp then some OSIP_UNDEFINED_ERROR
        else match paramByName from_.gen_params "tag" with
          | none => some OSIP_SYNTAXERROR
          | some tag_local =>
            match dlg.local_tag with
            | none => some OSIP_SYNTAXERROR
            | some ltag =>
              match tag_local.gvalue with
              | none => none
              | some fv =>
                if fv ≠ ltag then some OSIP_UNDEFINED_ERROR
                else match paramByName to.gen_params "tag", dlg.remote_tag with
                  | none, some _ => some OSIP_SYNTAXERROR
                  | _, none => some (compareBoth dlg.local_uri (some from_) dlg.remote_uri (some to))
                  | some tag_remote, some rtag =>
                    match tag_remote.gvalue with
                    | none => none
                    | some tv => if tv = rtag then some OSIP_SUCCESS else some OSIP_UNDEFINED_ERROR
    | _, _, _, _ => some OSIP_BADPARAMETER

/-- `osip_dialog_match_as_uas` (src/osip2/osip_dialog.c:230-296). -/
def dialog_match_as_uas (dlg : Option Dialog) (request : Msg) : Option Int :=
  match dlg with
  | none => some OSIP_BADPARAMETER
  | some dlg =>
    match dlg.call_id, request.call_id, request.from_, request.to with
    | some cid, some rcid, some from_, some to =>
      match call_id_to_str (some rcid) with
      | .error i => some i
      | .ok tmp =>
        if cid ≠ tmp then some OSIP_UNDEFINED_ERROR
        else if dlg.local_tag.isNone then some OSIP_SYNTAXERROR
        else match paramByName from_.gen_params "tag", dlg.remote_tag with
          | none, some _ => some OSIP_SYNTAXERROR
          | _, none => some (compareBoth dlg.remote_uri (some from_) dlg.local_uri (some to))
          | some tag_remote, some rtag =>
            match tag_remote.gvalue with
            | none => none
            | some fv => if fv = rtag then some OSIP_SUCCESS else some OSIP_UNDEFINED_ERROR
    | _, _, _, _ => some OSIP_BADPARAMETER

/-- The line parameter kept by `__osip_dialog_init` (src/osip2/osip_dialog.c:344-353); `none`:
`invite->req_uri` is dereferenced while NULL. -/
def lineParam (invite : Option Msg) : Option (Option Str) :=
  match invite with
  | none => some none
  | some inv => match inv.req_uri with
    | none => none
    | some u => match paramByName u.url_params "line" with
      | none => some none
      | some p => some p.gvalue

/-- `__osip_dialog_init` (src/osip2/osip_dialog.c:298-418). -/
def dialog_init (invite : Option Msg) (response : Msg) (local_ remote : Option From)
    (remote_msg : Msg) : Option (Except Int Dialog) :=
  match response.cseq, local_, remote with
  | some cs, some loc, some rem =>
    let d : Dialog := { state := if response.isStatus 2 then .CONFIRMED else .EARLY }
    match call_id_to_str response.call_id with
    | .error i => some (.error i)
    | .ok cid =>
      match paramByName loc.gen_params "tag" with
      | none => some (.error OSIP_UNDEFINED_ERROR)
      | some lt =>
        let d := { d with call_id := some cid, local_tag := lt.gvalue
                          remote_tag := (paramByName rem.gen_params "tag").bind (·.gvalue) }
        match lineParam invite with
        | none => none
        | some lp =>
          let d := { d with line_param := lp }
          let (ok, l) := if invite.isNone then addFront [] response.record_routes
            else addBack [] response.record_routes
          if !ok then some (.error OSIP_BADPARAMETER)
          else
            let d := { d with route_set := l, local_cseq := osip_atoi cs.number }
            match fromClone (some rem), fromClone (some loc) with
            | some r, some l =>
              let d := { d with remote_uri := some r, local_uri := some l }
              match replaceContact d remote_msg with
              | (false, _) => some (.error OSIP_BADPARAMETER)
              | (true, d) => some (.ok { d with secure := -1 })
            | _, _ => some (.error OSIP_BADPARAMETER)
  | _, _, _ => some (.error OSIP_SYNTAXERROR)

/-- `osip_dialog_init_as_uac` (src/osip2/osip_dialog.c:420-436). -/
def dialog_init_as_uac (response : Msg) : Option (Except Int Dialog) :=
  match dialog_init none response response.from_ response.to response with
  | none => none
  | some (.error i) => some (.error i)
  | some (.ok d) => some (.ok { d with type := .CALLER, remote_cseq := -1 })

/-- `osip_dialog_init_as_uac_with_remote_request` (src/osip2/osip_dialog.c:438-462). -/
def dialog_init_as_uac_with_remote_request (next_request : Msg) (local_cseq : Int) :
    Option (Except Int Dialog) :=
  match next_request.cseq with
  | none => some (.error OSIP_BADPARAMETER)
  | some cs =>
    match dialog_init (some next_request) next_request next_request.to next_request.from_
      next_request with
    | none => none
    | some (.error i) => some (.error i)
    | some (.ok d) => some (.ok { d with type := .CALLER, state := .CONFIRMED
                                         local_cseq := local_cseq
                                         remote_cseq := osip_atoi cs.number })

/-- `osip_dialog_init_as_uas` (src/osip2/osip_dialog.c:464-485). -/
def dialog_init_as_uas (invite response : Msg) : Option (Except Int Dialog) :=
  match response.cseq with
  | none => some (.error OSIP_SYNTAXERROR)
  | some cs =>
    match dialog_init (some invite) response response.to response.from_ invite with
    | none => none
    | some (.error i) => some (.error i)
    | some (.ok d) => some (.ok { d with type := .CALLEE, remote_cseq := osip_atoi cs.number })

end Osip
