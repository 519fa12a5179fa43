import Verif.Match.Model

/-!
# The transaction lookup of a library built with hash tables

When `dict/dict.h` is present (`HAVE_DICT_DICT_H`), the stack has a hash table beside each of the four
lists, from the branch of the top Via to the transaction. This is a translation of what the functions
of `osip.c` do in that build.

Simplifications: the `dict` library is not part of this repository; its tables are maps from texts to
transactions, `dict_insert` with `overwrite = FALSE` keeps an existing entry, and the texts are
compared with `strcmp` (src/osip2/osip.c:1001-1006), so that the hash function `s_hash`
(src/osip2/osip.c:367-378) has no influence on what is found. A transaction in a table is given by its
id; reading a table entry whose transaction is no longer in the list is undefined behaviour (`none`),
since it may have been freed.
-/

set_option autoImplicit false

namespace Osip

/-- A table from branches to ids of transactions. -/
abbrev HTable := List (Str × Int)

/-- `dict_search` of the dict library. -/
def dict_search (t : HTable) (key : Str) : Option Int := (t.find? (fun x => decide (x.1 = key))).map (·.2)

/-- `dict_insert (…, FALSE)` of the dict library: an entry that exists stays. -/
def dict_insert (t : HTable) (key : Str) (id : Int) : HTable :=
  if (dict_search t key).isSome then t else (key, id) :: t

/-- `dict_remove` of the dict library. -/
def dict_remove (t : HTable) (key : Str) : HTable := t.filter (fun x => decide (x.1 ≠ key))

/-- `osip_t` (include/osip2/osip.h:481-521) with the four tables. -/
structure HStack where
  s : Stack := {}
  tab : Kind → HTable := fun _ => []

/-- Replaces the table of the given kind. -/
def HStack.setTab (h : HStack) (k : Kind) (t : HTable) : HStack :=
  { h with tab := fun k' => if k' = k then t else h.tab k' }

/-- `b_request->gvalue` of the parameter `branch` of a Via, NULL if the parameter is missing. -/
def branchValue (v : Via) : Option Str := (paramByName v.via_params "branch").bind (·.gvalue)

/-- The part of `__osip_add_ict` and the three others that fills the table (src/osip2/osip.c:380-496). -/
def HStack.addKey (h : HStack) (k : Kind) (e : Entry) : HStack :=
  match branchValue e.topvia with
  | some b => h.setTab k (dict_insert (h.tab k) b e.transactionid)
  | none => h

/-- The part of `__osip_remove_ict_transaction` and the three others that empties the table
(src/osip2/osip.c:528-543, 573-589, 619-635, 665-681): the key is removed whatever its entry is. -/
def HStack.removeKey (h : HStack) (k : Kind) (topvia : Via) : HStack :=
  match branchValue topvia with
  | some b => h.setTab k (dict_remove (h.tab k) b)
  | none => h

/-- `osip_remove_transaction` (src/osip2/osip.c:498-515) for the transaction of kind `k` with this id.
The Via is that of the transaction, for a transaction that is not in the list (any more). -/
def HStack.osip_remove_transaction (h : HStack) (k : Kind) (id : Int) (topvia : Via) : HStack × Int :=
  let v := match (h.s.list k).find? (fun e => decide (e.transactionid = id)) with
    | some e => e.topvia
    | none => topvia
  let (s', i) := Osip.osip_remove_transaction h.s k id
  ({ h.removeKey k v with s := s' }, i)

/-- `osip_transaction_init` (src/osip2/osip_transaction.c:110-239). Where setting up fails, the
transaction is freed and so removed from the table; `none` also if it has no Via then, since
`osip_via_param_get_byname` is given the address of a member of the NULL Via
(include/osipparser2/headers/osip_via.h:199). -/
def HStack.osip_transaction_init (h : HStack) (k : Kind) (request : Msg) (now1 now2 : TimeVal) :
    Option (HStack × Option Entry) :=
  match Osip.osip_transaction_init h.s k request now1 now2 with
  | none => none
  | some (s', some e) => some ({ h.addKey k e with s := s' }, some e)
  | some (s', none) =>
    if (request.call_id.bind (·.number)).isNone then some ({ h with s := s' }, none)
    else match request.vias with
      | [] => none
      | v :: _ =>
        match viaClone (some v) with
        | none => none
        | some topvia => some ({ h.removeKey k topvia with s := s' }, none)

/-- `osip_create_transaction` (src/osip2/osip.c:817-869). -/
def HStack.osip_create_transaction (h : HStack) (evt : MsgEv) (now1 now2 : TimeVal) :
    Option (HStack × Option Entry) := do
  match ← createKind evt with
  | none => return (h, none)
  | some k => h.osip_transaction_init k evt.m now1 now2

/-- The transaction a table gives for a branch: inner `none` if there is no entry, outer `none` if the
entry is no transaction of the list. -/
def HStack.lookup (h : HStack) (k : Kind) (branch : Str) : Option (Option Entry) :=
  match dict_search (h.tab k) branch with
  | none => some none
  | some id =>
    match (h.s.list k).find? (fun e => decide (e.transactionid = id)) with
    | some e => some (some e)
    | none => none

/-- The table searched for an incoming message (src/osip2/osip.c:897, 932): by the method of the
request line, for a response by that of CSeq. -/
def tableKind (m : Msg) : Option Kind := do
  if m.isRequest then
    let method ← m.sip_method
    return if method = "INVITE".toList ∨ method = "ACK".toList then .IST else .NIST
  else
    let method ← m.cseq.bind (·.method)
    return if method = "INVITE".toList then .ICT else .NICT

/-- `osip_transaction_find` (src/osip2/osip.c:871-964) on the list of kind `k`. -/
def HStack.osip_transaction_find (h : HStack) (k : Kind) (evt : MsgEv) : Option (Option Entry) :=
  if (h.s.list k).isEmpty then some none
  else if evt.type.isIncomingReq || evt.type.isIncomingResp then
    match evt.m.vias with
    | [] => some none
    | topvia :: _ =>
      match branchValue topvia with
      | none => Osip.osip_transaction_find (h.s.list k) evt
      | some b => do
        match ← h.lookup (← tableKind evt.m) b with
        | some e => return some e
        | none => Osip.osip_transaction_find (h.s.list k) evt
  else Osip.osip_transaction_find (h.s.list k) evt

/-- `__osip_find_transaction` (src/osip2/osip.c:739-815) without the queueing. -/
def HStack.osip_find_transaction (h : HStack) (evt : MsgEv) : Option (Option Entry) :=
  if evt.m.cseq.isNone then some none
  else do
    let k ← searchKind evt
    h.osip_transaction_find k evt

/-- `osip_transaction_add_event` (src/osip2/osip_transaction.c:321-331) on a transaction of the stack. -/
def HStack.queue (h : HStack) (e : Entry) (evt : MsgEv) : HStack :=
  { h with s := h.s.setList e.kind (updateId (h.s.list e.kind) e.transactionid (·.addEvent evt)) }

/-- `osip_find_transaction_and_add_event` (src/osip2/osip.c:721-730): new stack and return value. -/
def HStack.osip_find_transaction_and_add_event (h : HStack) (evt : MsgEv) : Option (HStack × Int) := do
  match ← h.osip_find_transaction evt with
  | none => return (h, OSIP_UNDEFINED_ERROR)
  | some e => return (h.queue e evt, OSIP_SUCCESS)

/-- What is done to a stack: the operations of `SOp`; a transaction to be removed has a Via. -/
inductive HOp
  /-- the usual treatment of a message from the network, as `SOp.receive` -/
  | receive (m : Msg) (now1 now2 : TimeVal)
  /-- `osip_find_transaction_and_add_event` -/
  | deliver (evt : MsgEv)
  /-- `osip_create_transaction` -/
  | create (evt : MsgEv) (now1 now2 : TimeVal)
  /-- `osip_remove_transaction` -/
  | remove (k : Kind) (id : Int) (topvia : Via)
  /-- something happens to the transaction with this id -/
  | act (id : Int) (op : Op)

/-- The pattern of `HOp.receive`. -/
def HStack.receive (h : HStack) (m : Msg) (now1 now2 : TimeVal) : Option HStack := do
  let evt : MsgEv := { incoming := true, m }
  if ¬ evtAllowed m then return h
  let (h', i) ← h.osip_find_transaction_and_add_event evt
  if i = OSIP_SUCCESS then return h'
  match ← h.osip_create_transaction evt now1 now2 with
  | (h', none) => return h'
  | (h', some e) => return h'.queue e evt

/-- One operation. -/
def HStack.step (h : HStack) : HOp → Option HStack
  | .receive m now1 now2 => h.receive m now1 now2
  | .deliver evt => if evtAllowed evt.m then
      (h.osip_find_transaction_and_add_event evt).map (·.1) else some h
  | .create evt now1 now2 => if evtAllowed evt.m then
      (h.osip_create_transaction evt now1 now2).map (·.1) else some h
  | .remove k id topvia => some (h.osip_remove_transaction k id topvia).1
  | .act id op => (h.s.step (.act id op)).map fun s => { h with s }

/-- A sequence of operations. -/
def HStack.run (h : HStack) : List HOp → Option HStack
  | [] => some h
  | o :: os => do
    let h' ← h.step o
    h'.run os

/-- The stacks that can arise from a new one (`osip_init`, src/osip2/osip.c:966-1010). -/
def HReach (h : HStack) : Prop := ∃ ops, ({} : HStack).run ops = some h

end Osip
