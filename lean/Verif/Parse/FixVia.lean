import Verif.Msg
import Verif.Str.PropsTrim

/-!
# `osip_message_fix_last_via_header`: `src/osipparser2/osip_message_parse.c`

Memory allocation succeeds.
-/

set_option autoImplicit false

namespace Osip

/-- `%i`. -/
def intText (n : Int) : Str := if n < 0 then '-' :: Nat.toDigits 10 n.natAbs else Nat.toDigits 10 n.natAbs

/-- The value stored in the parameter `rport` found by `osip_via_param_get_byname` (src/osipparser2/osip_message_parse.c:926-938,
src/osipparser2/osip_uri.c:837-869); `snprintf` with size 8 in a block of 9 bytes. -/
def fixRport (port : Int) : List Param → List Param
  | [] => []
  | p :: ps =>
    if p.gname.length == "rport".toList.length && strcaseEq p.gname "rport".toList then
      (match p.gvalue with
      | none => { p with gvalue := some ((intText port).take 7) } :: ps
      | some _ => p :: ps)
    else p :: fixRport port ps

/-- `osip_message_fix_last_via_header` (src/osipparser2/osip_message_parse.c:907-946). `osip_via_set_received`
(include/osipparser2/headers/osip_via.h:178) trims the value (src/osipparser2/osip_uri.c:801-831). -/
def fix_last_via_header (request : Option Msg) (ip_addr : Str) (port : Int) : Int × Option Msg :=
  match request with
  | none => (OSIP_BADPARAMETER, none)
  | some m =>
    if m.isResponse then (OSIP_SUCCESS, some m)
    else
      match m.vias with
      | [] => (OSIP_BADPARAMETER, some m)
      | via :: vias =>
        match via.host with
        | none => (OSIP_BADPARAMETER, some m)
        | some host =>
          let via := { via with via_params := fixRport port via.via_params }
          if host = ip_addr then (OSIP_SUCCESS, some { m with vias := via :: vias })
          else
            let via := { via with via_params := via.via_params ++ [⟨"received".toList, some (trim ip_addr)⟩] }
            (OSIP_SUCCESS, some { m with vias := via :: vias })

end Osip
