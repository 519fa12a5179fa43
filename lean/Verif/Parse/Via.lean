import Verif.Parse.Params

/-!
# Via: `src/osipparser2/osip_via.c`

Pointers as in `Verif/Parse/Ptr.lean`. Memory allocation succeeds.
-/

set_option autoImplicit false

namespace Osip

/-- `while (0 == strncmp (host, " ", 1)) { host++; if (strlen (host) == 1) return … }`
(src/osipparser2/osip_via.c:161-165). `some none`: the function returns. -/
def viaSpaces : List Char → Option (Option (List Char))
  | [] => none
  | c :: t =>
    if c = ' ' then do
      let s ← cstr t
      if s.length = 1 then return none
      viaSpaces t
    else some (some (c :: t))

/-- The end of the protocol (src/osipparser2/osip_via.c:156-170): `protocol` points to the slash before it.
`some none`: the function returns `OSIP_SYNTAXERROR`. -/
def viaHost (protocol : List Char) : Option (Option (List Char)) := do
  match ← cstrchr ' ' (protocol.drop 1) with
  | none => return none
  | some host =>
    if pdiff host (protocol.drop 1) = 0 then
      match ← viaSpaces host with
      | none => return none
      | some host =>
        -- host + 1 must not be outside the block
        if host = [] then none else cstrchr ' ' (host.drop 1)
    else return some host

/-- The comment (src/osipparser2/osip_via.c:181-200): the comment and the pointer `comment` after it.
`.error` is the code returned. `comment--` gives the pointer to the byte before. -/
def viaComment (host : List Char) : Option (Except Int (Option Str × List Char)) := do
  match ← cstrchr '(' host with
  | some comment =>
    match ← cstrchr ')' host with
    | none => return .error OSIP_SYNTAXERROR
    | some end_comment =>
      if pdiff end_comment comment < 2 then return .error OSIP_SYNTAXERROR
      let c ← strncpy (comment.drop 1) (pdiff end_comment comment - 1)
      let k := pdiff comment host
      if k < 1 then none else return .ok (some c, host.drop (k.toNat - 1))
  | none =>
    let s ← cstr host
    return .ok (none, host.drop s.length)

/-- The pointer `p`, if it is not null and smaller than `q`. -/
def ifBefore (p : Option (List Char)) (q : List Char) : Option (List Char) :=
  match p with
  | some p => if pdiff p q < 0 then some p else none
  | none => none

/-- The host in brackets, and where the port is looked for (src/osipparser2/osip_via.c:229-244). `v6` is
`ipv6host`. -/
def viaV6 (via : Via) (host via_params : List Char) (v6 : Option (List Char)) :
    Option (Except Int (Via × Option (List Char))) :=
  match v6 with
  | some v6 => do
    match ← cstrchr ']' v6 with
    | none => return .error OSIP_SYNTAXERROR
    | some port =>
      if pdiff port via_params > 0 then return .error OSIP_SYNTAXERROR
      if pdiff port v6 < 2 then return .error OSIP_SYNTAXERROR
      let h ← clrncpy (v6.drop 1) (pdiff port v6 - 1)
      let port ← cstrchr ':' port
      return .ok ({ via with host := some h }, port)
  | none => do
    let port ← cstrchr ':' host
    return .ok (via, port)

/-- The port (src/osipparser2/osip_via.c:246-257). The result is the pointer `port` after it. -/
def viaPort (via : Via) (via_params : List Char) (port : Option (List Char)) :
    Option (Except (Int × Via) (Via × List Char)) :=
  match ifBefore port via_params with
  | some port => do
    if pdiff via_params port < 2 then return .error (OSIP_SYNTAXERROR, via)
    let p ← clrncpy (port.drop 1) (pdiff via_params port - 1)
    let via := { via with port := some p }
    if osip_atoi (some p) < 0 then return .error (OSIP_SYNTAXERROR, via)
    return .ok (via, port)
  | none => some (.ok (via, via_params))

/-- Host and port (src/osipparser2/osip_via.c:226-271). -/
def viaHostPort (via : Via) (host via_params : List Char) : Option (Int × Via) := do
  let ipv6host ← cstrchr '[' host
  let v6 := ifBefore ipv6host via_params
  match ← viaV6 via host via_params v6 with
  | .error i => return (i, via)
  | .ok (via, port) =>
    match ← viaPort via via_params port with
    | .error x => return x
    | .ok (via, port) =>
      if v6.isSome then return (OSIP_SUCCESS, via)
      if pdiff port host < 2 then return (OSIP_SYNTAXERROR, via)
      let h ← clrncpy (host.drop 1) (pdiff port host - 1)
      return (OSIP_SUCCESS, { via with host := some h })

/-- `osip_via_parse` (src/osipparser2/osip_via.c:126-272) on a fresh structure. -/
def osip_via_parse (hvalue : List Char) : Option (Int × Via) := do
  match ← cstrchr '/' hvalue with
  | none => return (OSIP_SYNTAXERROR, {})
  | some version =>
    match ← cstrchr '/' (version.drop 1) with
    | none => return (OSIP_SYNTAXERROR, {})
    | some protocol =>
      if pdiff protocol version < 2 then return (OSIP_SYNTAXERROR, {})
      let v ← clrncpy (version.drop 1) (pdiff protocol version - 1)
      let via : Via := { version := some v }
      match ← viaHost protocol with
      | none => return (OSIP_SYNTAXERROR, via)
      | some host =>
        if pdiff host protocol < 2 then return (OSIP_SYNTAXERROR, via)
        let p ← clrncpy (protocol.drop 1) (pdiff host protocol - 1)
        let via := { via with protocol := some p }
        match ← viaComment host with
        | .error i => return (i, via)
        | .ok (cm, comment) =>
          let via := { via with comment := cm }
          match ← cstrchr ';' host with
          | none => viaHostPort via host comment
          | some via_params =>
            if pdiff via_params comment < 0 then
              if pdiff comment via_params + 1 < 2 then return (OSIP_SYNTAXERROR, via)
              let tmp ← strncpy via_params (pdiff comment via_params)
              let (i, ps) ← generic_param_parseall via.via_params (Str.buf tmp)
              let via := { via with via_params := ps }
              if i ≠ 0 then return (i, via)
              viaHostPort via host via_params
            else viaHostPort via host via_params

/-- The loop over the parameters (src/osipparser2/osip_via.c:314-333); the result is the string and the size
of its block. -/
def viaParamsStr : List Param → Nat → Str → Option (Str × Nat)
  | [], len, buf => some (buf, len)
  | p :: ps, len, buf => do
    let len := len + (match p.gvalue with
      | none => p.gname.length + 2
      | some v => p.gname.length + v.length + 3)
    let buf ← put len buf (match p.gvalue with
      | none => ';' :: p.gname
      | some v => ';' :: p.gname ++ '=' :: v)
    viaParamsStr ps len buf

/-- Parameters and comment (src/osipparser2/osip_via.c:312-342). -/
def viaTailStr (ps : List Param) (comment : Option Str) (len : Nat) (buf : Str) : Option (Int × Option Str) := do
  let (buf, len) ← viaParamsStr ps len buf
  match comment with
  | none => return (OSIP_SUCCESS, some buf)
  | some c =>
    let len := len + c.length + 4
    let buf ← putn len buf (" (".toList ++ c ++ [')'])
    return (OSIP_SUCCESS, some buf)

/-- `osip_via_to_str` (src/osipparser2/osip_via.c:278-344) with the sizes of the blocks. -/
def osip_via_to_str (via : Option Via) : Option (Int × Option Str) :=
  match via with
  | some { version := some version, protocol := some protocol, host := some host, port, comment, via_params } => do
    let len := version.length + 1 + protocol.length + 1 + 3 + 2
    let len := len + host.length + 3 + 1
    let len := match port with
      | none => len
      | some p => len + p.length + 2
    let head := "SIP/".toList ++ version ++ '/' :: protocol ++ [' ']
    let buf ← put len [] (match host.contains ':', port with
      | true, none => head ++ '[' :: host ++ [']']
      | true, some p => head ++ '[' :: host ++ "]:".toList ++ p
      | false, none => head ++ host
      | false, some p => head ++ host ++ ':' :: p)
    viaTailStr via_params comment len buf
  | _ => some (OSIP_BADPARAMETER, none)

end Osip
