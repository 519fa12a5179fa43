import Verif.Fsm.Model

/-!
# Memory used by the set-up of a transaction: `osip_transaction_init` (src/osip2/osip_transaction.c:110-239)

Only the blocks of memory are followed: which ones are allocated, which pointers lead to them and which are freed. Every call of
`osip_malloc` may fail. The result `none` is undefined behaviour: `free` of a block which is not allocated (any more), or a NULL
dereference. A pointer to a string is the number of its block, or `none` for NULL. The library is the one with threads and POSIX
semaphores and without `HAVE_DICT_DICT_H`.
-/

set_option autoImplicit false

namespace Osip.Setup

/-- What a block is allocated for. -/
inductive Tag
  | struct | string | node
  deriving DecidableEq, Repr

/-- The heap: number of calls of `osip_malloc` so far, which is the number of the next block, and the allocated blocks. -/
structure Mem where
  count : Nat := 0
  live : List Nat := []
  deriving DecidableEq, Repr

/-- A function with access to the heap. -/
abbrev M := StateT Mem Option

/-- Which calls of `osip_malloc` succeed. -/
abbrev Oracle := Tag → Nat → Bool

/-- `osip_malloc`. -/
def malloc (ok : Oracle) (t : Tag) : M (Option Nat) := fun m =>
  if ok t m.count then some (some m.count, { count := m.count + 1, live := m.count :: m.live })
  else some (none, { m with count := m.count + 1 })

/-- `osip_free` (include/osipparser2/osip_port.h:105). -/
def free (p : Option Nat) : M Unit := fun m =>
  match p with
  | none => some ((), m)
  | some b => if b ∈ m.live then some ((), { m with live := m.live.erase b }) else none

/-- `osip_strdup` (src/osipparser2/osip_port.c:345-359). -/
def strdup (ok : Oracle) (s : Option Str) : M (Option Nat) :=
  match s with
  | none => return none
  | some _ => malloc ok .string

/-- A parameter: its block and its strings. -/
structure PParam where
  self : Nat
  gname : Option Nat
  gvalue : Option Nat
  deriving DecidableEq, Repr

/-- A list: the nodes and their elements. -/
abbrev PList := List (Nat × PParam)

/-- `osip_uri_param_clone` (src/osipparser2/osip_uri.c:871-893): a failing `osip_strdup` is not noticed. -/
def param_clone (ok : Oracle) (p : Param) : M (Int × Option PParam) := do
  match ← malloc ok .struct with
  | none => return (OSIP_NOMEM, none)
  | some b =>
    let gname ← strdup ok (some p.gname)
    let gvalue ← strdup ok p.gvalue
    return (OSIP_SUCCESS, some ⟨b, gname, gvalue⟩)

/-- `osip_uri_param_free` (src/osipparser2/osip_uri.c:794-800). -/
def param_free (p : PParam) : M Unit := do
  free p.gname
  free p.gvalue
  free (some p.self)

/-- `osip_list_clone` (src/osipparser2/osip_list.c:34-49) for parameters: the code of `osip_list_add` is not looked at. -/
def list_clone (ok : Oracle) : List Param → PList → M (Int × PList)
  | [], dst => return (OSIP_SUCCESS, dst)
  | p :: ps, dst => do
    match ← param_clone ok p with
    | (i, none) => return (i, dst)
    | (_, some q) =>
      match ← malloc ok .node with
      | none => list_clone ok ps dst
      | some n => list_clone ok ps (dst ++ [(n, q)])

/-- `osip_uri_param_freelist` (src/osipparser2/osip_uri.c:831-841); `osip_list_remove` frees the node. -/
def list_free : PList → M Unit
  | [] => return ()
  | (n, p) :: ps => do
    free (some n)
    param_free p
    list_free ps

/-- `osip_uri_t` -/
structure PUri where
  self : Nat
  scheme : Option Nat := none
  username : Option Nat := none
  password : Option Nat := none
  host : Option Nat := none
  port : Option Nat := none
  string : Option Nat := none
  url_params : PList := []
  url_headers : PList := []
  deriving DecidableEq, Repr

/-- `osip_uri_free` (src/osipparser2/osip_uri.c:712-738). -/
def uri_free (u : PUri) : M Unit := do
  free u.scheme
  free u.username
  free u.password
  free u.host
  free u.port
  list_free u.url_params
  list_free u.url_headers
  free u.string
  free (some u.self)

/-- `osip_uri_clone` (src/osipparser2/osip_uri.c:740-780): a failing `osip_strdup` is not noticed. -/
def uri_clone (ok : Oracle) (url : Uri) : M (Int × Option PUri) := do
  if url.host.isNone && url.string.isNone then return (OSIP_BADPARAMETER, none)
  match ← malloc ok .struct with
  | none => return (OSIP_NOMEM, none)
  | some b =>
    let scheme ← strdup ok url.scheme
    let username ← strdup ok url.username
    let password ← strdup ok url.password
    let host ← strdup ok url.host
    let port ← strdup ok url.port
    let string ← strdup ok url.string
    let (i, ps) ← list_clone ok url.url_params []
    if i ≠ 0 then
      uri_free ⟨b, scheme, username, password, host, port, string, ps, []⟩
      return (i, none)
    let (i, hs) ← list_clone ok url.url_headers []
    if i ≠ 0 then
      uri_free ⟨b, scheme, username, password, host, port, string, ps, hs⟩
      return (i, none)
    return (OSIP_SUCCESS, some ⟨b, scheme, username, password, host, port, string, ps, hs⟩)

/-- `osip_from_t` and `osip_to_t` -/
structure PFrom where
  self : Nat
  displayname : Option Nat := none
  url : Option PUri := none
  gen_params : PList := []
  deriving DecidableEq, Repr

/-- `osip_from_free` (src/osipparser2/osip_from.c:82-95), also `osip_to_free` (src/osipparser2/osip_to.c:90-94). -/
def from_free (f : Option PFrom) : M Unit :=
  match f with
  | none => return ()
  | some f => do
    match f.url with
    | none => pure ()
    | some u => uri_free u
    free f.displayname
    list_free f.gen_params
    free (some f.self)

/-- The URI is copied if there is one (src/osipparser2/osip_from.c:416-422). -/
def url_clone (ok : Oracle) (url : Option Uri) : M (Int × Option PUri) :=
  match url with
  | none => return (OSIP_SUCCESS, none)
  | some u => uri_clone ok u

/-- A copied string has to be there if the original is. -/
def missing (orig : Option Str) (copy : Option Nat) : Bool := orig.isSome && copy.isNone

/-- `osip_from_clone` (src/osipparser2/osip_from.c:395-431), also `osip_to_clone` (src/osipparser2/osip_to.c:96-100). -/
def from_clone (ok : Oracle) (f : Option From) : M (Int × Option PFrom) :=
  match f with
  | none => return (OSIP_BADPARAMETER, none)
  | some f => do
    match ← malloc ok .struct with
    | none => return (OSIP_NOMEM, none)
    | some b =>
      let displayname ← strdup ok f.displayname
      if missing f.displayname displayname then
        from_free (some ⟨b, none, none, []⟩)
        return (OSIP_NOMEM, none)
      let (i, url) ← url_clone ok f.url
      if i ≠ 0 then
        from_free (some ⟨b, displayname, none, []⟩)
        return (i, none)
      let (i, ps) ← list_clone ok f.gen_params []
      if i ≠ 0 then
        from_free (some ⟨b, displayname, url, ps⟩)
        return (i, none)
      return (OSIP_SUCCESS, some ⟨b, displayname, url, ps⟩)

/-- `osip_via_t` -/
structure PVia where
  self : Nat
  version : Option Nat := none
  protocol : Option Nat := none
  host : Option Nat := none
  port : Option Nat := none
  comment : Option Nat := none
  via_params : PList := []
  deriving DecidableEq, Repr

/-- `osip_via_free` (src/osipparser2/osip_via.c:110-123). -/
def via_free (v : Option PVia) : M Unit :=
  match v with
  | none => return ()
  | some v => do
    free v.version
    free v.protocol
    free v.host
    free v.port
    free v.comment
    list_free v.via_params
    free (some v.self)

/-- `osip_via_clone` (src/osipparser2/osip_via.c:416-472). -/
def via_clone (ok : Oracle) (via : Via) : M (Int × Option PVia) := do
  if via.version.isNone then return (OSIP_BADPARAMETER, none)
  if via.protocol.isNone then return (OSIP_BADPARAMETER, none)
  if via.host.isNone then return (OSIP_BADPARAMETER, none)
  match ← malloc ok .struct with
  | none => return (OSIP_NOMEM, none)
  | some b =>
    let version ← strdup ok via.version
    if missing via.version version then
      via_free (some { self := b })
      return (OSIP_NOMEM, none)
    let protocol ← strdup ok via.protocol
    if missing via.protocol protocol then
      via_free (some { self := b, version })
      return (OSIP_NOMEM, none)
    let host ← strdup ok via.host
    if missing via.host host then
      via_free (some { self := b, version, protocol })
      return (OSIP_NOMEM, none)
    let port ← strdup ok via.port
    if missing via.port port then
      via_free (some { self := b, version, protocol, host })
      return (OSIP_NOMEM, none)
    let comment ← strdup ok via.comment
    if missing via.comment comment then
      via_free (some { self := b, version, protocol, host, port })
      return (OSIP_NOMEM, none)
    let (i, ps) ← list_clone ok via.via_params []
    if i ≠ 0 then
      via_free (some ⟨b, version, protocol, host, port, comment, ps⟩)
      return (i, none)
    return (OSIP_SUCCESS, some ⟨b, version, protocol, host, port, comment, ps⟩)

/-- `osip_call_id_t` (number and host) and `osip_cseq_t` (method and number). -/
structure PPair where
  self : Nat
  fst : Option Nat := none
  snd : Option Nat := none
  deriving DecidableEq, Repr

/-- `osip_call_id_free` (src/osipparser2/osip_call_id.c:77-89) and `osip_cseq_free` (src/osipparser2/osip_cseq.c:159-167). -/
def pair_free (p : Option PPair) : M Unit :=
  match p with
  | none => return ()
  | some p => do
    free p.fst
    free p.snd
    free (some p.self)

/-- `osip_call_id_clone` (src/osipparser2/osip_call_id.c:180-201): a failing `osip_strdup` is not noticed. -/
def call_id_clone (ok : Oracle) (c : Option CallId) : M (Int × Option PPair) :=
  match c with
  | none => return (OSIP_BADPARAMETER, none)
  | some c => do
    if c.number.isNone then return (OSIP_BADPARAMETER, none)
    match ← malloc ok .struct with
    | none => return (OSIP_NOMEM, none)
    | some b =>
      let number ← strdup ok c.number
      let host ← strdup ok c.host
      return (OSIP_SUCCESS, some ⟨b, number, host⟩)

/-- `osip_cseq_clone` (src/osipparser2/osip_cseq.c:169-193): a failing `osip_strdup` is not noticed; `osip_cseq_free` is called with
NULL if `osip_cseq_init` failed. -/
def cseq_clone (ok : Oracle) (c : Option CSeq) : M (Int × Option PPair) :=
  match c with
  | none => return (OSIP_BADPARAMETER, none)
  | some c => do
    if c.method.isNone then return (OSIP_BADPARAMETER, none)
    if c.number.isNone then return (OSIP_BADPARAMETER, none)
    match ← malloc ok .struct with
    | none =>
      pair_free none
      return (OSIP_NOMEM, none)
    | some b =>
      let method ← strdup ok c.method
      let number ← strdup ok c.number
      return (OSIP_SUCCESS, some ⟨b, method, number⟩)

/-- `osip_fifo_t` with its mutex and its semaphore. -/
structure PFifo where
  self : Nat
  qislocked : Option Nat := none
  qisempty : Option Nat := none
  deriving DecidableEq, Repr

/-- `osip_fifo_init` (src/osip2/port_fifo.c:28-40) with `osip_mutex_init` (src/osip2/port_sema.c:39-48) and `osip_sem_init` (169-181),
whose call of `sem_init` does not fail. -/
def fifo_init (ok : Oracle) (ff : Nat) : M PFifo := do
  let mut_ ← malloc ok .struct
  let sem ← malloc ok .struct
  return ⟨ff, mut_, sem⟩

/-- `osip_fifo_free` (src/osip2/port_fifo.c:171-182) with `osip_mutex_destroy` (src/osip2/port_sema.c:50-59) and `osip_sem_destroy`
(183-193). The queue is empty during set-up. -/
def fifo_free (f : Option PFifo) : M Unit :=
  match f with
  | none => return ()
  | some f => do
    free f.qislocked
    free f.qisempty
    free (some f.self)

/-- The context of a transaction; the server contexts have no destination. -/
structure PCtx where
  self : Nat
  destination : Option Nat := none
  deriving DecidableEq, Repr

/-- `__osip_ict_free`, `__osip_nict_free`, `__osip_ist_free` and `__osip_nist_free` (src/osip2/ict.c:151-161, nict.c:142-152,
ist.c:75-83, nist.c:68-77). -/
def ctx_free (c : Option PCtx) : M Unit :=
  match c with
  | none => return ()
  | some c => do
    free c.destination
    free (some c.self)

/-- `osip_ict_set_destination` and `osip_nict_set_destination` (src/osip2/ict.c:163-172, nict.c:154-163). -/
def set_destination (c : PCtx) (destination : Option Nat) : M PCtx := do
  free c.destination
  return { c with destination }

/-- `__osip_ict_init` (src/osip2/ict.c:26-149): code and `*ict`. If it fails after `*ict` is freed, `*ict` still points there. -/
def ict_init (ok : Oracle) (invite : Msg) : M (Int × Option PCtx) := do
  match ← malloc ok .struct with
  | none => return (OSIP_NOMEM, none)
  | some b =>
    match invite.vias with
    | [] =>
      free (some b)
      return (OSIP_UNDEFINED_ERROR, some ⟨b, none⟩)
    | via :: _ =>
      if via.protocol.isNone then
        free (some b)
        return (OSIP_SYNTAXERROR, some ⟨b, none⟩)
      let (h, _) ← requestDestination invite
      let d ← strdup ok h
      let c ← set_destination ⟨b, none⟩ d
      return (OSIP_SUCCESS, some c)

/-- `__osip_nict_init` (src/osip2/nict.c:26-140). -/
def nict_init (ok : Oracle) (request : Msg) : M (Int × Option PCtx) := do
  match ← malloc ok .struct with
  | none => return (OSIP_NOMEM, none)
  | some b =>
    match request.vias with
    | [] =>
      free (some b)
      return (OSIP_UNDEFINED_ERROR, none)
    | via :: _ =>
      if via.protocol.isNone then
        free (some b)
        return (OSIP_UNDEFINED_ERROR, none)
      let (h, _) ← requestDestination request
      let d ← strdup ok h
      let c ← set_destination ⟨b, none⟩ d
      return (OSIP_SUCCESS, some c)

/-- `__osip_ist_init` (src/osip2/ist.c:26-73) and `__osip_nist_init` (src/osip2/nist.c:26-66). -/
def server_init (ok : Oracle) (request : Msg) : M (Int × Option PCtx) := do
  match ← malloc ok .struct with
  | none => return (OSIP_NOMEM, none)
  | some b =>
    match request.vias with
    | [] =>
      free (some b)
      return (OSIP_UNDEFINED_ERROR, none)
    | via :: _ =>
      if via.protocol.isNone then
        free (some b)
        return (OSIP_UNDEFINED_ERROR, none)
      return (OSIP_SUCCESS, some ⟨b, none⟩)

/-- `osip_transaction_t`: the members which are set during set-up. -/
structure PTrans where
  self : Nat
  topvia : Option PVia := none
  frm : Option PFrom := none
  to : Option PFrom := none
  callid : Option PPair := none
  cseq : Option PPair := none
  transactionff : Option PFifo := none
  ctx : Option PCtx := none
  deriving DecidableEq, Repr

/-- `osip_transaction_free` and `osip_transaction_free2` (src/osip2/osip_transaction.c:255-319): the transaction is not in a list yet,
so that `osip_remove_transaction` finds nothing; there are no messages and no events. -/
def transaction_free (t : PTrans) : M Unit := do
  ctx_free t.ctx
  fifo_free t.transactionff
  via_free t.topvia
  from_free t.frm
  from_free t.to
  pair_free t.callid
  pair_free t.cseq
  free (some t.self)

/-- The context which fits the type. -/
def ctx_init (ok : Oracle) (k : Kind) (request : Msg) : M (Int × Option PCtx) :=
  match k with
  | .ICT => ict_init ok request
  | .NICT => nict_init ok request
  | .IST | .NIST => server_init ok request

/-- `osip_transaction_init` (src/osip2/osip_transaction.c:110-239): code and `*transaction`. The node for the list of transactions
(`__osip_add_ict` and others) belongs to the stack and is left out. -/
def osip_transaction_init (ok : Oracle) (k : Kind) (request : Msg) : M (Int × Option PTrans) := do
  if request.call_id.isNone then return (OSIP_BADPARAMETER, none)
  if (request.call_id.bind (·.number)).isNone then return (OSIP_BADPARAMETER, none)
  match ← malloc ok .struct with
  | none => return (OSIP_NOMEM, none)
  | some b =>
    match request.vias with
    | [] =>
      transaction_free { self := b }
      return (OSIP_SYNTAXERROR, none)
    | via :: _ =>
      let (i, topvia) ← via_clone ok via
      if i ≠ 0 then
        transaction_free { self := b }
        return (i, none)
      let (i, frm) ← from_clone ok request.from_
      if i ≠ 0 then
        transaction_free { self := b, topvia }
        return (i, none)
      let (i, to) ← from_clone ok request.to
      if i ≠ 0 then
        transaction_free { self := b, topvia, frm }
        return (i, none)
      let (i, callid) ← call_id_clone ok request.call_id
      if i ≠ 0 then
        transaction_free { self := b, topvia, frm, to }
        return (i, none)
      let (i, cseq) ← cseq_clone ok request.cseq
      if i ≠ 0 then
        transaction_free { self := b, topvia, frm, to, callid }
        return (i, none)
      match ← malloc ok .struct with
      | none =>
        transaction_free { self := b, topvia, frm, to, callid, cseq }
        return (OSIP_NOMEM, none)
      | some ff =>
        let f ← fifo_init ok ff
        let (i, ctx) ← ctx_init ok k request
        if i ≠ 0 then
          transaction_free { self := b, topvia, frm, to, callid, cseq, transactionff := some f, ctx }
          return (i, none)
        return (OSIP_SUCCESS, some { self := b, topvia, frm, to, callid, cseq, transactionff := some f, ctx })

end Osip.Setup
