import Verif.Msg

/-!
# Destination of a response
-/

set_option autoImplicit false

namespace Osip

/-- `osip_response_get_destination` (src/osip2/osip.c:32-77): address and port; NULL and 0 if there
is no Via header. -/
def osip_response_get_destination (response : Msg) : Option Str × Int :=
  match response.vias with
  | [] => (none, 0)
  | via :: _ =>
    let maddr := paramByName via.via_params "maddr"
    let received := paramByName via.via_params "received"
    let rport := paramByName via.via_params "rport"
    let host := match maddr with
      | some p => p.gvalue
      | none => match received with
        | some p => p.gvalue
        | none => via.host
    let port := match rport with
      | none => match via.port with
        | some p => osip_atoi (some p)
        | none => 5060
      | some p => match p.gvalue with
        | some v => osip_atoi (some v)
        | none => match via.port with
          | some p => osip_atoi (some p)
          | none => 5060
    (host, port)

end Osip
