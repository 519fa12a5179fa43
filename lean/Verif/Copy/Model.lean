import Verif.Base

/-!
# Copying messages when memory can run out (the `_clone` and `_free` functions of src/osipparser2)

All these functions have one form: look at some fields of the source, make an empty structure with the `_init` function, copy the fields one
after the other and, if that fails, give the structure back with the `_free` function. What differs from type to type is the list of fields
and what is done if `osip_strdup` fails. So a type is a list of `Fields` and the functions are defined once for all lists.

The heap knows the number of allocations and the blocks in use. Every structure, string and list node is a block of its own. Whether an
allocation succeeds is decided by an oracle which knows the number of the allocation and whether it is a list node. Giving back a block that
is not in use and reading from one are `none`.

Simplified: fields without memory of their own (numbers and `application_data`) are left out; a body of n bytes is a string of
n bytes; fields are given back in the order in which they are copied.
-/

set_option autoImplicit false

namespace Osip.Copy

/-- What a block is for. -/
inductive Kind
  /-- a node of a list (src/osipparser2/osip_list.c:101-174) -/
  | node
  /-- a structure or a string -/
  | other
  deriving DecidableEq

/-- The number of allocations so far and the blocks in use. -/
structure Heap where
  next : Nat
  live : List Nat
  deriving DecidableEq, Repr

/-- `osip_malloc`. -/
def malloc (ok : Kind → Nat → Bool) (k : Kind) (h : Heap) : Option Nat × Heap :=
  if ok k h.next then (some h.next, ⟨h.next + 1, h.next :: h.live⟩) else (none, ⟨h.next + 1, h.live⟩)

/-- `osip_free` of a pointer which is not NULL. -/
def free (id : Nat) (h : Heap) : Option Heap := if id ∈ h.live then some ⟨h.next, h.live.erase id⟩ else none

/-- What is done if `osip_strdup` fails. -/
inductive Check
  /-- the structure is given back, `OSIP_NOMEM` is returned -/
  | freed
  /-- a test that looks at the source in place of the copy: nothing is done -/
  | wrong
  /-- there is no test -/
  | none
  deriving DecidableEq

/-- The fields of a structure with memory of their own. `freed` tells whether the `_free` function gives the field back, `need` is the test
of the strings of the source at the beginning of the `_clone` function. -/
inductive Fields
  | nil
  /-- `char *` -/
  | str (name : String) (check : Check) (freed : Bool) (rest : Fields)
  /-- pointer to another structure, whose `_clone` function is called if it is not NULL -/
  | obj (name : String) (need : List (Option Str) → Bool) (sub : Fields) (freed : Bool) (rest : Fields)
  /-- list of other structures -/
  | list (name : String) (need : List (Option Str) → Bool) (sub : Fields) (freed : Bool) (rest : Fields)

/-- The contents of the fields: pointers with the blocks they point to. An element of a list has a node and a structure. -/
def Vals : Fields → Type
  | .nil => Unit
  | .str _ _ _ r => Option (Nat × Str) × Vals r
  | .obj _ _ s _ r => Option (Nat × Vals s) × Vals r
  | .list _ _ s _ r => List (Nat × Nat × Vals s) × Vals r

/-- The fields after the `_init` function. -/
def empty : (fs : Fields) → Vals fs
  | .nil => ()
  | .str _ _ _ r => (Option.none, empty r)
  | .obj _ _ _ _ r => (Option.none, empty r)
  | .list _ _ _ _ r => ([], empty r)

/-- The strings, for the tests. -/
def strings : (fs : Fields) → Vals fs → List (Option Str)
  | .nil, _ => []
  | .str _ _ _ r, (p, v) => p.map Prod.snd :: strings r v
  | .obj _ _ _ _ r, (_, v) => strings r v
  | .list _ _ _ _ r, (_, v) => strings r v

/-- `osip_list_special_free` (src/osipparser2/osip_list.c:51-64) with a function which gives back the fields of an element. -/
def freeList {α : Type} (f : α → Heap → Option Heap) : List (Nat × Nat × α) → Heap → Option Heap
  | [], h => some h
  | (n, id, v) :: l, h => do
    let h ← free n h
    let h ← f v h
    let h ← free id h
    freeList f l h

/-- The `_free` functions up to the last `osip_free`. -/
def freeFields : (fs : Fields) → Vals fs → Heap → Option Heap
  | .nil, _, h => some h
  | .str _ _ fr r, (p, v), h => do
    let h ← (match p with
      | Option.none => some h
      | some (id, _) => if fr then free id h else some h)
    freeFields r v h
  | .obj _ _ s fr r, (p, v), h => do
    let h ← (match p with
      | Option.none => some h
      | some (id, w) => if fr then (freeFields s w h).bind (free id) else some h)
    freeFields r v h
  | .list _ _ s fr r, (l, v), h => do
    let h ← if fr then freeList (freeFields s) l h else some h
    freeFields r v h

/-- The frame of the `_clone` functions: `cl` copies the fields, `fr` gives them back. Code and copy. -/
def cloneObj {α : Type} (ok : Kind → Nat → Bool) (good : α → Bool) (cl : α → Heap → Option (Int × α × Heap)) (fr : α → Heap → Option Heap)
    (id : Nat) (src : α) (h : Heap) : Option (Int × Option (Nat × α) × Heap) :=
  if id ∉ h.live then Option.none
  else if good src = false then some (OSIP_BADPARAMETER, Option.none, h)
  else
    match malloc ok .other h with
    | (Option.none, h) => some (OSIP_NOMEM, Option.none, h)
    | (some n, h) => do
      let (i, d, h) ← cl src h
      if i ≠ 0 then
        let h ← fr d h
        let h ← free n h
        return (i, Option.none, h)
      return (OSIP_SUCCESS, some (n, d), h)

/-- `osip_list_clone` (src/osipparser2/osip_list.c:34-49) and the loops of the same form in `osip_accept_encoding_clone` and
`osip_content_type_clone`; `osip_list_add` returns `OSIP_NOMEM` if there is no memory for the node, which is ignored. -/
def cloneList {α : Type} (ok : Kind → Nat → Bool) (clone : Nat → α → Heap → Option (Int × Option (Nat × α) × Heap)) :
    List (Nat × Nat × α) → Heap → Option (Int × List (Nat × Nat × α) × Heap)
  | [], h => some (OSIP_SUCCESS, [], h)
  | (n, id, v) :: l, h => do
    if n ∉ h.live then Option.none
    else
      let (i, q, h) ← clone id v h
      if i ≠ 0 then return (i, [], h)
      let q ← q
      match malloc ok .node h with
      | (Option.none, h) => cloneList ok clone l h
      | (some m, h) => do
        let (i, d, h) ← cloneList ok clone l h
        return (i, (m, q) :: d, h)

/-- The part of the `_clone` functions which copies the fields: code and the fields of the copy. -/
def cloneFields (ok : Kind → Nat → Bool) : (fs : Fields) → Vals fs → Heap → Option (Int × Vals fs × Heap)
  | .nil, _, h => some (OSIP_SUCCESS, (), h)
  | .str _ c _ r, (p, v), h =>
    match p with
    | Option.none => do
      let (i, d, h) ← cloneFields ok r v h
      return (i, (Option.none, d), h)
    | some (id, s) =>
      if id ∉ h.live then Option.none
      else
        match malloc ok .other h with
        | (Option.none, h) =>
          if c = .freed then some (OSIP_NOMEM, (Option.none, empty r), h)
          else do
            let (i, d, h) ← cloneFields ok r v h
            return (i, (Option.none, d), h)
        | (some n, h) => do
          let (i, d, h) ← cloneFields ok r v h
          return (i, (some (n, s), d), h)
  | .obj _ need s _ r, (p, v), h =>
    match p with
    | Option.none => do
      let (i, d, h) ← cloneFields ok r v h
      return (i, (Option.none, d), h)
    | some (id, w) => do
      let (i, q, h) ← cloneObj ok (fun w => need (strings s w)) (cloneFields ok s) (freeFields s) id w h
      if i ≠ 0 then return (i, (Option.none, empty r), h)
      let (i, d, h) ← cloneFields ok r v h
      return (i, (q, d), h)
  | .list _ need s _ r, (l, v), h => do
    let (i, q, h) ← cloneList ok (cloneObj ok (fun w => need (strings s w)) (cloneFields ok s) (freeFields s)) l h
    if i ≠ 0 then return (i, (q, empty r), h)
    let (i, d, h) ← cloneFields ok r v h
    return (i, (q, d), h)

/-- A structure with its block, and the test of its `_clone` function. -/
structure Ty where
  need : List (Option Str) → Bool
  fields : Fields

/-- The `_clone` function of a type. -/
def Ty.clone (ty : Ty) (ok : Kind → Nat → Bool) (id : Nat) (v : Vals ty.fields) (h : Heap) : Option (Int × Option (Nat × Vals ty.fields) × Heap) :=
  cloneObj ok (fun w => ty.need (strings ty.fields w)) (cloneFields ok ty.fields) (freeFields ty.fields) id v h

/-- The `_free` function of a type. -/
def Ty.free (ty : Ty) (id : Nat) (v : Vals ty.fields) (h : Heap) : Option Heap := (freeFields ty.fields v h).bind (Copy.free id)

/-! ## The types -/

/-- Notation for the tables. -/
def all : List (Option Str) → Bool := fun _ => true

/-- `osip_uri_param_clone` (src/osipparser2/osip_uri.c:872-893), `osip_uri_param_free` (793-799); also generic parameters
(include/osipparser2/osip_message.h:393-417). -/
def uriParam : Ty where
  need l := (l.getD 0 Option.none).isSome
  fields := .str "gname" .none true (.str "gvalue" .none true .nil)

/-- `osip_uri_clone` (src/osipparser2/osip_uri.c:740-780), `osip_uri_free` (712-738). -/
def uri : Ty where
  need l := (l.getD 3 Option.none).isSome || (l.getD 5 Option.none).isSome
  fields := .str "scheme" .none true (.str "username" .none true (.str "password" .none true (.str "host" .none true (.str "port" .none true
    (.str "string" .none true (.list "url_params" uriParam.need uriParam.fields true (.list "url_headers" uriParam.need uriParam.fields true .nil)))))))

/-- `osip_from_clone` (src/osipparser2/osip_from.c:395-431), `osip_from_free` (82-95); also To, Contact, Route and Record-Route. -/
def «from» : Ty where
  need := all
  fields := .str "displayname" .freed true (.obj "url" uri.need uri.fields true (.list "gen_params" uriParam.need uriParam.fields true .nil))

/-- `osip_via_clone` (src/osipparser2/osip_via.c:416-472), `osip_via_free` (110-123). -/
def via : Ty where
  need l := (l.getD 0 Option.none).isSome && (l.getD 1 Option.none).isSome && (l.getD 2 Option.none).isSome
  fields := .str "version" .freed true (.str "protocol" .freed true (.str "host" .freed true (.str "port" .freed true (.str "comment" .freed true
    (.list "via_params" uriParam.need uriParam.fields true .nil)))))

/-- `osip_cseq_clone` (src/osipparser2/osip_cseq.c:169-193), `osip_cseq_free` (159-167). -/
def cseq : Ty where
  need l := (l.getD 0 Option.none).isSome && (l.getD 1 Option.none).isSome
  fields := .str "method" .none true (.str "number" .none true .nil)

/-- `osip_call_id_clone` (src/osipparser2/osip_call_id.c:180-201), `osip_call_id_free` (77-89). -/
def callId : Ty where
  need l := (l.getD 0 Option.none).isSome
  fields := .str "number" .none true (.str "host" .none true .nil)

/-- `osip_content_length_clone` (src/osipparser2/osip_content_length.c:117-143), `osip_content_length_free` (108-115); also Allow,
Content-Encoding and Mime-Version. -/
def contentLength : Ty where
  need := all
  fields := .str "value" .freed true .nil

/-- `osip_content_type_clone` (src/osipparser2/osip_content_type.c:210-244), `osip_content_type_free` (194-208); also Accept. -/
def contentType : Ty where
  need := all
  fields := .str "type" .none true (.str "subtype" .none true (.list "gen_params" uriParam.need uriParam.fields true .nil))

/-- `osip_accept_encoding_clone` (src/osipparser2/osip_accept_encoding.c:165-201), `osip_accept_encoding_free` (152-163); also
Accept-Language. `osip_call_info_clone` (src/osipparser2/osip_call_info.c:173-201), `osip_call_info_free` (159-171) have the same form; also
Alert-Info and Error-Info. -/
def callInfo : Ty where
  need l := (l.getD 0 Option.none).isSome
  fields := .str "element" .freed true (.list "gen_params" uriParam.need uriParam.fields true .nil)

/-- `osip_header_clone` (src/osipparser2/osip_header.c:284-315), `osip_header_free` (212-223). -/
def header : Ty where
  need l := (l.getD 0 Option.none).isSome
  fields := .str "hname" .freed true (.str "hvalue" .freed true .nil)

/-- `osip_body_clone` (src/osipparser2/osip_body.c:75-114), `osip_body_free` (450-463). The list of the headers has a block of its own; it is
made by `osip_body_init` (30-48), here together with its elements. -/
def body : Ty where
  need l := ((l.getD 0 Option.none).getD []).length > 0
  fields := .str "body" .freed true (.obj "content_type" contentType.need contentType.fields true
    (.obj "headers" all (.list "node" header.need header.fields true .nil) true .nil))

/-- `osip_www_authenticate_clone` (src/osipparser2/osip_www_authenticate.c:644-730), `osip_www_authenticate_free` (623-642); also
Proxy-Authenticate. -/
def wwwAuthenticate : Ty where
  need l := (l.getD 0 Option.none).isSome
  fields := .str "auth_type" .freed true (.str "realm" .freed true (.str "domain" .freed true (.str "nonce" .freed true (.str "opaque" .freed true
    (.str "stale" .freed true (.str "algorithm" .freed true (.str "qop_options" .freed true (.str "version" .freed true
    (.str "targetname" .freed true (.str "gssapi_data" .freed true .nil))))))))))

/-- `osip_authorization_clone` (src/osipparser2/osip_authorization.c:719-864), `osip_authorization_free` (694-717); also
Proxy-Authorization. Twelve of the tests look at the source. -/
def authorization : Ty where
  need := all
  fields := .str "auth_type" .freed true (.str "username" .freed true (.str "realm" .wrong true (.str "nonce" .wrong true (.str "uri" .freed true
    (.str "response" .wrong true (.str "digest" .freed true (.str "algorithm" .wrong true (.str "cnonce" .freed true (.str "opaque" .wrong true
    (.str "message_qop" .wrong true (.str "nonce_count" .wrong true (.str "version" .wrong true (.str "targetname" .wrong true
    (.str "gssapi_data" .wrong true (.str "crand" .wrong true (.str "cnum" .wrong true .nil))))))))))))))))

/-- `osip_authentication_info_clone` (src/osipparser2/osip_authentication_info.c:529-567), `osip_authentication_info_free` (509-527); also
Proxy-Authentication-Info. -/
def authenticationInfo : Ty where
  need := all
  fields := .str "auth_type" .none true (.str "nextnonce" .none true (.str "cnonce" .none true (.str "rspauth" .none true
    (.str "nonce_count" .none true (.str "qop_options" .none true (.str "snum" .none true (.str "srand" .none true (.str "targetname" .none true
    (.str "realm" .none true (.str "opaque" .none true .nil))))))))))

/-- A list field of a message. -/
def many (name : String) (t : Ty) (rest : Fields) : Fields := .list name t.need t.fields true rest
/-- A pointer field of a message. -/
def one (name : String) (t : Ty) (rest : Fields) : Fields := .obj name t.need t.fields true rest

/-- `osip_message_clone` (src/osipparser2/osip_message.c:172-374) without `MINISIZE`, `osip_message_free` (117-170). -/
def message : Ty where
  need := all
  fields := .str "sip_method" .freed true (.str "sip_version" .freed true (.str "reason_phrase" .freed true (one "req_uri" uri
    (many "accepts" contentType (many "accept_encodings" callInfo (many "accept_languages" callInfo (many "alert_infos" callInfo
    (many "allows" contentLength (many "authentication_infos" authenticationInfo (many "content_encodings" contentLength
    (many "error_infos" callInfo (many "proxy_authentication_infos" authenticationInfo (many "call_infos" callInfo
    (many "authorizations" authorization (one "call_id" callId (many "contacts" «from» (one "content_length" contentLength
    (one "content_type" contentType (one "cseq" cseq (one "from" «from» (one "mime_version" contentLength
    (many "proxy_authenticates" wwwAuthenticate (many "proxy_authorizations" authorization (many "record_routes" «from»
    (many "routes" «from» (one "to" «from» (many "vias" via (many "www_authenticates" wwwAuthenticate (many "headers" header
    (many "bodies" body (.str "message" .freed true .nil)))))))))))))))))))))))))))))))

end Osip.Copy
