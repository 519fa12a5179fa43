import Verif.Msg

/-!
# String form of the headers compared by the transaction and dialog layers

Only the resulting string is modelled here.
-/

namespace Osip

/-- The part of a parameter written by the loops of `osip_via_to_str`
(src/osipparser2/osip_via.c:318-331): `;name` or `;name=value`. -/
def paramToStr (p : Param) : Str :=
  match p.gvalue with
  | none => ';' :: p.gname
  | some v => ';' :: p.gname ++ '=' :: v

/-- `osip_via_to_str` (src/osipparser2/osip_via.c:277-344). `.error` is the returned code. -/
def via_to_str (via : Option Via) : Except Int Str :=
  match via with
  | none => .error OSIP_BADPARAMETER
  | some via =>
    match via.host, via.version, via.protocol with
    | some host, some version, some protocol =>
      let h := if host.contains ':' then '[' :: host ++ [']'] else host
      let p := match via.port with
        | none => []
        | some p => ':' :: p
      let c := match via.comment with
        | none => []
        | some c => " (".toList ++ c ++ ")".toList
      .ok ("SIP/".toList ++ version ++ "/".toList ++ protocol ++ " ".toList ++ h ++ p
        ++ via.via_params.flatMap paramToStr ++ c)
    | _, _, _ => .error OSIP_BADPARAMETER

/-- `osip_call_id_to_str` (src/osipparser2/osip_call_id.c:129-150). -/
def call_id_to_str (c : Option CallId) : Except Int Str :=
  match c with
  | none => .error OSIP_BADPARAMETER
  | some c => match c.number with
    | none => .error OSIP_BADPARAMETER
    | some n => match c.host with
      | none => .ok n
      | some h => .ok (n ++ '@' :: h)

/-- `osip_call_id_match` (src/osipparser2/osip_call_id.c:203-225). -/
def call_id_match (c1 c2 : Option CallId) : Int :=
  match c1, c2 with
  | some c1, some c2 =>
    match c1.number, c2.number with
    | some n1, some n2 =>
      if n1 ≠ n2 then OSIP_UNDEFINED_ERROR
      else match c1.host, c2.host with
        | none, none => OSIP_SUCCESS
        | none, some _ => OSIP_UNDEFINED_ERROR
        | some _, none => OSIP_UNDEFINED_ERROR
        | some h1, some h2 => if h1 ≠ h2 then OSIP_UNDEFINED_ERROR else OSIP_SUCCESS
    | _, _ => OSIP_BADPARAMETER
  | _, _ => OSIP_BADPARAMETER

/-- `osip_cseq_match` (src/osipparser2/osip_cseq.c:195-216). -/
def cseq_match (c1 c2 : Option CSeq) : Int :=
  match c1, c2 with
  | some c1, some c2 =>
    match c1.number, c2.number, c1.method, c2.method with
    | some n1, some n2, some m1, some m2 =>
      if n1 = n2 then
        if m2 = "INVITE".toList ∨ m2 = "ACK".toList then
          if m1 = "INVITE".toList ∨ m1 = "ACK".toList then OSIP_SUCCESS else OSIP_UNDEFINED_ERROR
        else if m1 = m2 then OSIP_SUCCESS else OSIP_UNDEFINED_ERROR
      else OSIP_UNDEFINED_ERROR
    | _, _, _, _ => OSIP_BADPARAMETER
  | _, _ => OSIP_BADPARAMETER

/-- `osip_from_tag_match`, also `osip_to_tag_match` (src/osipparser2/osip_from.c:682-704). -/
def from_tag_match (f1 f2 : Option From) : Int :=
  match f1, f2 with
  | some f1, some f2 =>
    match paramByName f1.gen_params "tag", paramByName f2.gen_params "tag" with
    | none, none => OSIP_SUCCESS
    | some _, none => OSIP_UNDEFINED_ERROR
    | none, some _ => OSIP_UNDEFINED_ERROR
    | some t1, some t2 =>
      match t1.gvalue, t2.gvalue with
      | some v1, some v2 => if v1 ≠ v2 then OSIP_UNDEFINED_ERROR else OSIP_SUCCESS
      | _, _ => OSIP_UNDEFINED_ERROR
  | _, _ => OSIP_BADPARAMETER

/-- `osip_via_match` (src/osipparser2/osip_via.c:474-503). -/
def via_match (v1 v2 : Option Via) : Int :=
  match v1, v2 with
  | some v1, some v2 =>
    match via_to_str (some v1), via_to_str (some v2) with
    | .error i, _ => i
    | .ok _, .error i => i
    | .ok s1, .ok s2 => if s1 ≠ s2 then OSIP_UNDEFINED_ERROR else OSIP_SUCCESS
  | _, _ => OSIP_BADPARAMETER

/-- The tag found by the loops of `osip_from_compare` (src/osipparser2/osip_from.c:464-485): the
value of the first parameter whose name starts with "tag". -/
def compareTag (f : From) : Option Str :=
  (f.gen_params.find? (fun p => "tag".toList.isPrefixOf p.gname)).bind (·.gvalue)

/-- `osip_from_compare` (src/osipparser2/osip_from.c:432-503). -/
def from_compare (f1 f2 : Option From) : Int :=
  match f1, f2 with
  | some f1, some f2 =>
    match f1.url, f2.url with
    | some u1, some u2 =>
      let rest (h1 h2 : Str) : Int :=
        if h1 ≠ h2 then OSIP_UNDEFINED_ERROR
        else
          let userDiffers := match u1.username, u2.username with
            | some a, some b => decide (a ≠ b)
            | _, _ => false
          if userDiffers then OSIP_UNDEFINED_ERROR
          else match compareTag f1, compareTag f2 with
            | some a, some b => if a ≠ b then OSIP_UNDEFINED_ERROR else OSIP_SUCCESS
            | _, _ => OSIP_SUCCESS
      match u1.host, u2.host with
      | none, none =>
        match u1.string, u2.string with
        | some s1, some s2 => if s1 = s2 then OSIP_SUCCESS else OSIP_UNDEFINED_ERROR
        | _, _ => OSIP_UNDEFINED_ERROR
      | some h1, some h2 => rest h1 h2
      | _, _ => OSIP_UNDEFINED_ERROR
    | _, _ => OSIP_BADPARAMETER
  | _, _ => OSIP_BADPARAMETER

end Osip
