import Verif.Parse.Ptr
import Verif.Parse.Params

/-!
# Session descriptions: reading and writing

Model of src/osipparser2/sdp_message.c. Pointers are as in `Verif.Parse.Ptr`: the bytes from the pointer to
the end of the block; the block ends with the terminator of the text. Allocation succeeds. Members that the
code replaces without freeing them leak; the model does not see that.
-/

set_option autoImplicit false

namespace Osip.Sdp

open Osip

/-- `sdp_bandwidth_t` (include/osipparser2/sdp_message.h:58-61). -/
structure Bandwidth where
  bwtype : Option Str := none
  bandwidth : Option Str := none
deriving DecidableEq, Repr

/-- `sdp_time_descr_t` (include/osipparser2/sdp_message.h:84-88). The elements of the lists of strings are not null. -/
structure TimeDescr where
  start : Option Str := none
  stop : Option Str := none
  repeats : List Str := []
deriving DecidableEq, Repr

/-- `sdp_key_t` (include/osipparser2/sdp_message.h:111-114). -/
structure Key where
  keytype : Option Str := none
  keydata : Option Str := none
deriving DecidableEq, Repr

/-- `sdp_attribute_t` (include/osipparser2/sdp_message.h:137-140). -/
structure Attribute where
  field : Option Str := none
  value : Option Str := none
deriving DecidableEq, Repr

/-- `sdp_connection_t` (include/osipparser2/sdp_message.h:164-172). -/
structure Connection where
  nettype : Option Str := none
  addrtype : Option Str := none
  addr : Option Str := none
  ttl : Option Str := none
  int : Option Str := none
deriving DecidableEq, Repr

/-- `sdp_media_t` (include/osipparser2/sdp_message.h:195-210). -/
structure Media where
  media : Option Str := none
  port : Option Str := none
  number : Option Str := none
  proto : Option Str := none
  payloads : List Str := []
  info : Option Str := none
  connections : List Connection := []
  bandwidths : List Bandwidth := []
  attributes : List Attribute := []
  key : Option Key := none
deriving DecidableEq, Repr

/-- `sdp_message_t` (include/osipparser2/sdp_message.h:233-256); the default values are those of
`sdp_message_init` (src/osipparser2/sdp_message.c:236-318). -/
structure Session where
  version : Option Str := none
  username : Option Str := none
  sess_id : Option Str := none
  sess_version : Option Str := none
  nettype : Option Str := none
  addrtype : Option Str := none
  addr : Option Str := none
  name : Option Str := none
  info : Option Str := none
  uri : Option Str := none
  emails : List Str := []
  phones : List Str := []
  connection : Option Connection := none
  bandwidths : List Bandwidth := []
  times : List TimeDescr := []
  zone : Option Str := none
  key : Option Key := none
  attributes : List Attribute := []
  medias : List Media := []
deriving DecidableEq, Repr

/-- `ERR_ERROR`, `ERR_DISCARD` and `WF` (src/osipparser2/sdp_message.c:27-29). -/
abbrev ERR_ERROR : Int := -1
abbrev ERR_DISCARD : Int := 0
abbrev WF : Int := 1

/-! ## Lines -/

/-- A loop that advances a pointer to the first byte with `stop`: the bytes passed and the pointer. -/
def scan (stop : Char → Bool) : List Char → Option (Str × List Char)
  | [] => none
  | c :: t => if stop c then some ([], c :: t) else (scan stop t).map fun r => (c :: r.1, r.2)

/-- `p[-1]`. -/
def before (block p : List Char) : Option Char :=
  if p.length < block.length then block[block.length - p.length - 1]? else none

/-- What the beginning of a line is. -/
inductive Start where
  | error
  | discard
  | value (p : List Char)

/-- The beginning of every line parser (for `v` src/osipparser2/sdp_message.c:347-358, which also tests for
`=` in the first place, for `o` :390-398, and so on): search `=` and test the byte before it. -/
def lineStart (block : List Char) (first : Bool) (name : Char) (buf : List Char) : Option Start := do
  let r ← scan (fun c => c == '=' || c == NUL) buf
  let c ← deref r.2
  if c = NUL then return .error
  if first = true ∧ r.1 = [] then return .discard
  let x ← before block r.2
  if x ≠ name then return .discard
  return .value (r.2.drop 1)

/-- The search for the end of the line, in every line parser (for `v` src/osipparser2/sdp_message.c:360-367):
the value and the pointer to its end. -/
def lineEnd (p : List Char) : Option (Option (Str × List Char)) := do
  let r ← scan (fun c => c == '\r' || c == '\n' || c == NUL) p
  let c ← deref r.2
  if c = NUL then return none
  if r.1 = [] then return none
  return some r

/-- The last lines of every line parser (for `v` src/osipparser2/sdp_message.c:373-376). -/
def lineNext (crlf : List Char) : Option (List Char) := do
  let c ← deref (crlf.drop 1)
  return if c = '\n' then crlf.drop 2 else crlf.drop 1

/-- The frame of a line parser: `body` gets the value, the pointer to it and the pointer to its end, and
says whether it succeeds. The result is the code, the session and `*next`. -/
def line (block : List Char) (first : Bool) (name : Char) (body : Str → List Char → List Char → Option (Bool × Session))
    (sdp : Session) (buf : List Char) : Option (Int × Session × List Char) := do
  match ← lineStart block first name buf with
  | .error => return (ERR_ERROR, sdp, buf)
  | .discard => return (ERR_DISCARD, sdp, buf)
  | .value p =>
    match ← lineEnd p with
    | none => return (ERR_ERROR, sdp, buf)
    | some (val, crlf) =>
      let r ← body val p crlf
      if r.1 then
        let next ← lineNext crlf
        return (WF, r.2, next)
      else return (ERR_ERROR, r.2, buf)

/-- `__osip_set_next_token` (src/osipparser2/osip_port.c:597-624); `some none` stands for the error code.
The byte-level model of the same function is `Osip.set_next_token`. -/
def token (buf : List Char) (sepc : Char) : Option (Option (Str × List Char)) := do
  let r ← scan (fun c => c == sepc || c == NUL || c == '\r' || c == '\n') buf
  let c ← deref r.2
  if (c = '\r' ∨ c = '\n') ∧ c ≠ sepc then return none
  if c = NUL then return none
  if r.1 = [] then return none
  return some (r.1, r.2.drop 1)

/-- The two calls for the last token of a line (for example src/osipparser2/sdp_message.c:459-464). -/
def lastToken (buf : List Char) : Option (Option (Str × List Char)) := do
  match ← token buf '\r' with
  | some r => return some r
  | none => token buf '\n'

/-- Go on with the value if there is one, return the error otherwise. -/
def andThen {α β : Type} (x : Option (Option α)) (f : α → Option (Option β)) : Option (Option β) :=
  x.bind fun r => r.elim (some none) f

/-- Where the lines go that may stand before or behind a media line (for example
src/osipparser2/sdp_message.c:567-574): to the last media if there is one. -/
def place (sdp : Session) (session : Session → Session) (media : Media → Media) : Session :=
  (sdp.medias.getLast?).elim (session sdp) fun m => { sdp with medias := sdp.medias.dropLast ++ [media m] }

/-- `p < q` for two pointers into a block. -/
def below (p q : List Char) : Bool := q.length < p.length

/-! ## The line parsers -/

/-- `sdp_message_parse_v` (src/osipparser2/sdp_message.c:339-378). -/
def parse_v (block : List Char) (sdp : Session) (buf : List Char) : Option (Int × Session × List Char) :=
  line block true 'v' (fun val _ _ => some (true, { sdp with version := some val })) sdp buf

/-- `sdp_message_parse_o` (src/osipparser2/sdp_message.c:380-469), without FIREFLY_BUG_SUPPORT. -/
def parse_o (block : List Char) (sdp : Session) (buf : List Char) : Option (Int × Session × List Char) :=
  line block false 'o' (fun _ p _ => do
    match ← token p ' ' with
    | none => return (false, sdp)
    | some (username, tmp) =>
    let sdp := { sdp with username := some username }
    match ← token tmp ' ' with
    | none => return (false, sdp)
    | some (sess_id, tmp) =>
    let sdp := { sdp with sess_id := some sess_id }
    match ← token tmp ' ' with
    | none => return (false, sdp)
    | some (sess_version, tmp) =>
    let sdp := { sdp with sess_version := some sess_version }
    match ← token tmp ' ' with
    | none => return (false, sdp)
    | some (nettype, tmp) =>
    let sdp := { sdp with nettype := some nettype }
    match ← token tmp ' ' with
    | none => return (false, sdp)
    | some (addrtype, tmp) =>
    let sdp := { sdp with addrtype := some addrtype }
    match ← lastToken tmp with
    | none => return (false, sdp)
    | some (addr, _) => return (true, { sdp with addr := some addr })) sdp buf

/-- `sdp_message_parse_s` (src/osipparser2/sdp_message.c:471-523), without FIREFLY_BUG_SUPPORT. -/
def parse_s (block : List Char) (sdp : Session) (buf : List Char) : Option (Int × Session × List Char) :=
  line block false 's' (fun val _ _ => some (true, { sdp with name := some val })) sdp buf

/-- `sdp_message_parse_i` (src/osipparser2/sdp_message.c:525-581). -/
def parse_i (block : List Char) (sdp : Session) (buf : List Char) : Option (Int × Session × List Char) :=
  line block false 'i' (fun val _ _ =>
    some (true, place sdp (fun s => { s with info := some val }) fun m => { m with info := some val })) sdp buf

/-- `sdp_message_parse_u` (src/osipparser2/sdp_message.c:583-622). -/
def parse_u (block : List Char) (sdp : Session) (buf : List Char) : Option (Int × Session × List Char) :=
  line block false 'u' (fun val _ _ => some (true, { sdp with uri := some val })) sdp buf

/-- `sdp_message_parse_e` (src/osipparser2/sdp_message.c:624-666). -/
def parse_e (block : List Char) (sdp : Session) (buf : List Char) : Option (Int × Session × List Char) :=
  line block false 'e' (fun val _ _ => some (true, { sdp with emails := sdp.emails ++ [val] })) sdp buf

/-- `sdp_message_parse_p` (src/osipparser2/sdp_message.c:668-710). -/
def parse_p (block : List Char) (sdp : Session) (buf : List Char) : Option (Int × Session × List Char) :=
  line block false 'p' (fun val _ _ => some (true, { sdp with phones := sdp.phones ++ [val] })) sdp buf

/-- The value of a `c` line (src/osipparser2/sdp_message.c:741-821). -/
def readConnection (p crlf : List Char) : Option (Option Connection) :=
  andThen (token p ' ') fun nettype =>
  andThen (token nettype.2 ' ') fun addrtype => do
    let tmp := addrtype.2
    let slash ← cstrchr '/' tmp
    if slash.any fun q => below q crlf then
      andThen (token tmp '/') fun addr => do
        let slash ← cstrchr '/' ((slash.getD []).drop 1)
        if slash.any fun q => below q crlf then
          andThen (token addr.2 '/') fun ttl =>
          andThen (lastToken ttl.2) fun int =>
            some (some ⟨some nettype.1, some addrtype.1, some addr.1, some ttl.1, some int.1⟩)
        else
          andThen (lastToken addr.2) fun ttl =>
            some (some ⟨some nettype.1, some addrtype.1, some addr.1, some ttl.1, none⟩)
    else
      andThen (lastToken tmp) fun addr =>
        some (some ⟨some nettype.1, some addrtype.1, some addr.1, none, none⟩)

/-- `sdp_message_parse_c` (src/osipparser2/sdp_message.c:712-838). -/
def parse_c (block : List Char) (sdp : Session) (buf : List Char) : Option (Int × Session × List Char) :=
  line block false 'c' (fun _ p crlf => (readConnection p crlf).map fun c =>
    c.elim (false, sdp) fun c =>
      (true, place sdp (fun s => { s with connection := some c }) fun m => { m with connections := m.connections ++ [c] })) sdp buf

/-- The value of a `b` line (src/osipparser2/sdp_message.c:869-892). -/
def readBandwidth (p : List Char) : Option (Option Bandwidth) :=
  andThen (token p ':') fun bwtype =>
  andThen (lastToken bwtype.2) fun bandwidth => some (some ⟨some bwtype.1, some bandwidth.1⟩)

/-- `sdp_message_parse_b` (src/osipparser2/sdp_message.c:840-912). -/
def parse_b (block : List Char) (sdp : Session) (buf : List Char) : Option (Int × Session × List Char) :=
  line block false 'b' (fun _ p _ => (readBandwidth p).map fun b =>
    b.elim (false, sdp) fun b =>
      (true, place sdp (fun s => { s with bandwidths := s.bandwidths ++ [b] })
        fun m => { m with bandwidths := m.bandwidths ++ [b] })) sdp buf

/-- The value of a `t` line (src/osipparser2/sdp_message.c:943-964). -/
def readTime (p : List Char) : Option (Option TimeDescr) :=
  andThen (token p ' ') fun start =>
  andThen (lastToken start.2) fun stop => some (some ⟨some start.1, some stop.1, []⟩)

/-- `sdp_message_parse_t` (src/osipparser2/sdp_message.c:914-975). -/
def parse_t (block : List Char) (sdp : Session) (buf : List Char) : Option (Int × Session × List Char) :=
  line block false 't' (fun _ p _ => (readTime p).map fun t =>
    t.elim (false, sdp) fun t => (true, { sdp with times := sdp.times ++ [t] })) sdp buf

/-- `sdp_message_parse_r` (src/osipparser2/sdp_message.c:977-1026). The test for a `t` line is made behind
the search for the end of the line; both return the same error. -/
def parse_r (block : List Char) (sdp : Session) (buf : List Char) : Option (Int × Session × List Char) :=
  line block false 'r' (fun val _ _ => some ((sdp.times.getLast?).elim (false, sdp) fun t =>
    (true, { sdp with times := sdp.times.dropLast ++ [{ t with repeats := t.repeats ++ [val] }] }))) sdp buf

/-- `sdp_message_parse_z` (src/osipparser2/sdp_message.c:1028-1069). -/
def parse_z (block : List Char) (sdp : Session) (buf : List Char) : Option (Int × Session × List Char) :=
  line block false 'z' (fun val _ _ => some (true, { sdp with zone := some val })) sdp buf

/-- The value of a `k` or `a` line (src/osipparser2/sdp_message.c:1099-1140, :1189-1230): the part before
the colon and the part behind it. -/
def readPair (p crlf : List Char) : Option (Option (Str × Option Str)) := do
  let colon ← cstrchr ':' p
  if colon.any fun q => below q crlf then
    andThen (token p ':') fun a => andThen (lastToken a.2) fun b => some (some (a.1, some b.1))
  else andThen (lastToken p) fun a => some (some (a.1, none))

/-- `sdp_message_parse_k` (src/osipparser2/sdp_message.c:1071-1159). -/
def parse_k (block : List Char) (sdp : Session) (buf : List Char) : Option (Int × Session × List Char) :=
  line block false 'k' (fun _ p crlf => (readPair p crlf).map fun k =>
    k.elim (false, sdp) fun k =>
      (true, place sdp (fun s => { s with key := some ⟨some k.1, k.2⟩ }) fun m => { m with key := some ⟨some k.1, k.2⟩ })) sdp buf

/-- `sdp_message_parse_a` (src/osipparser2/sdp_message.c:1161-1250). -/
def parse_a (block : List Char) (sdp : Session) (buf : List Char) : Option (Int × Session × List Char) :=
  line block false 'a' (fun _ p crlf => (readPair p crlf).map fun a =>
    a.elim (false, sdp) fun a =>
      (true, place sdp (fun s => { s with attributes := s.attributes ++ [⟨some a.1, a.2⟩] })
        fun m => { m with attributes := m.attributes ++ [⟨some a.1, a.2⟩] })) sdp buf

/-- The port of an `m` line (src/osipparser2/sdp_message.c:1297-1327): the port, the number of ports and the
pointer behind them. -/
def readPort (tmp : List Char) : Option (Option (Str × Option Str × List Char)) := do
  let slash ← cstrchr '/' tmp
  match ← cstrchr ' ' tmp with
  | none => return none
  | some space =>
    if slash.any fun q => below q space then
      andThen (token tmp '/') fun port =>
      andThen (token port.2 ' ') fun number => some (some (port.1, some number.1, number.2))
    else andThen (token tmp ' ') fun port => some (some (port.1, none, port.2))

/-- The protocol of an `m` line (src/osipparser2/sdp_message.c:1329-1341). -/
def readProto (tmp : List Char) : Option (Option (Str × List Char)) := do
  match ← token tmp ' ' with
  | some r => return some r
  | none => lastToken tmp

/-- The loop over the payloads that have a blank behind them (src/osipparser2/sdp_message.c:1347-1371): the
payloads and the pointer behind them. -/
def payloadLoop (crlf : List Char) : Nat → List Char → Option (Option (List Str × List Char))
  | 0, _ => none
  | n + 1, tmp => do
    let space ← cstrchr ' ' (tmp.drop 1)
    if space.any fun q => ¬ below crlf q then
      andThen (token tmp ' ') fun str =>
      andThen (payloadLoop crlf n str.2) fun r => some (some (str.1 :: r.1, r.2))
    else return some ([], tmp)

/-- The payloads of an `m` line (src/osipparser2/sdp_message.c:1343-1382). -/
def readPayloads (tmp crlf : List Char) : Option (Option (List Str)) :=
  andThen (payloadLoop crlf (tmp.length + 1) tmp) fun r =>
    if below r.2 crlf then andThen (lastToken r.2) fun str => some (some (r.1 ++ [str.1]))
    else some (some r.1)

/-- The value of an `m` line (src/osipparser2/sdp_message.c:1281-1382). -/
def readMedia (p crlf : List Char) : Option (Option Media) :=
  andThen (token p ' ') fun media =>
  andThen (readPort media.2) fun port =>
  andThen (readProto port.2.2) fun proto =>
  andThen (readPayloads proto.2 crlf) fun payloads =>
    some (some ⟨some media.1, some port.1, port.2.1, some proto.1, payloads, none, [], [], [], none⟩)

/-- `sdp_message_parse_m` (src/osipparser2/sdp_message.c:1252-1391). -/
def parse_m (block : List Char) (sdp : Session) (buf : List Char) : Option (Int × Session × List Char) :=
  line block false 'm' (fun _ p crlf => (readMedia p crlf).map fun m =>
    m.elim (false, sdp) fun m => (true, { sdp with medias := sdp.medias ++ [m] })) sdp buf

/-! ## `sdp_message_parse` -/

/-- Where `sdp_message_parse` is: it has returned, or it goes on at a pointer. -/
inductive Step where
  | stop (code : Int) (sdp : Session)
  | go (sdp : Session) (ptr : List Char)
deriving DecidableEq, Repr

/-- A part of `sdp_message_parse`. -/
abbrev Part := Session → List Char → Option Step

/-- A line parser. -/
abbrev Parser := Session → List Char → Option (Int × Session × List Char)

/-- One part behind another. -/
def Step.next (x : Option Step) (f : Part) : Option Step :=
  x.bind fun
    | .stop i s => some (.stop i s)
    | .go s p => f s p

/-- A mandatory line (for example src/osipparser2/sdp_message.c:1420-1425). -/
def mandatory (f : Parser) : Part := fun sdp ptr => do
  let r ← f sdp ptr
  if r.1 = -1 then return .stop (-1) r.2.1
  if r.1 = 0 then return .stop (-1) r.2.1
  return .go r.2.1 r.2.2

/-- An optional line (for example src/osipparser2/sdp_message.c:1428-1434). -/
def optional (f : Parser) : Part := fun sdp ptr => do
  let r ← f sdp ptr
  if r.1 = -1 then return .stop (-1) r.2.1
  return .go r.2.1 r.2.2

/-- Any number of lines (for example src/osipparser2/sdp_message.c:1465-1471). -/
def many (f : Parser) : Nat → Part
  | 0, _, _ => none
  | n + 1, sdp, ptr => do
    let r ← f sdp ptr
    if r.1 = -1 then return .stop (-1) r.2.1
    if r.1 = 1 then many f n r.2.1 r.2.2
    else return .go r.2.1 r.2.2

/-- Return at the end of the text or at an empty line (for example src/osipparser2/sdp_message.c:1505-1506). -/
def ended : Part := fun sdp ptr => do
  let c ← deref ptr
  if c = NUL ∨ c = '\r' ∨ c = '\n' then return .stop OSIP_SUCCESS sdp
  return .go sdp ptr

/-- An optional line and the test for the end (for example src/osipparser2/sdp_message.c:1557-1563). -/
def optionalEnd (f : Parser) : Part := fun sdp ptr => Step.next (optional f sdp ptr) ended

/-- Any number of lines with the test for the end behind each (for example
src/osipparser2/sdp_message.c:1508-1517). -/
def manyEnd (f : Parser) : Nat → Part
  | 0, _, _ => none
  | n + 1, sdp, ptr => do
    let r ← f sdp ptr
    if r.1 = -1 then return .stop (-1) r.2.1
    Step.next (ended r.2.1 r.2.2) fun sdp ptr => if r.1 = 1 then manyEnd f n sdp ptr else some (.go sdp ptr)

/-- The loop over further `t` lines (src/osipparser2/sdp_message.c:1531-1554). -/
def timeLoop (block : List Char) : Nat → Part
  | 0, _, _ => none
  | n + 1, sdp, ptr =>
    Step.next (manyEnd (parse_r block) (block.length + 1) sdp ptr) fun sdp ptr => do
      let r ← parse_t block sdp ptr
      if r.1 = -1 then return .stop (-1) r.2.1
      Step.next (ended r.2.1 r.2.2) fun sdp ptr => if r.1 = ERR_DISCARD then some (.go sdp ptr) else timeLoop block n sdp ptr

/-- The lines of a media behind its `m` line (src/osipparser2/sdp_message.c:1592-1631). -/
def mediaLines (block : List Char) : Part := fun sdp ptr =>
  let n := block.length + 1
  let x := optionalEnd (parse_i block) sdp ptr
  let x := Step.next x (manyEnd (parse_c block) n)
  let x := Step.next x (manyEnd (parse_b block) n)
  let x := Step.next x (optionalEnd (parse_k block))
  Step.next x (manyEnd (parse_a block) n)

/-- The loop over the media (src/osipparser2/sdp_message.c:1585-1632). -/
def mediaLoop (block : List Char) : Nat → Part
  | 0, _, _ => none
  | n + 1, sdp, ptr => do
    let r ← parse_m block sdp ptr
    if r.1 = -1 then return .stop (-1) r.2.1
    let x := Step.next (ended r.2.1 r.2.2) (mediaLines block)
    Step.next x fun sdp ptr => if r.1 = 1 then mediaLoop block n sdp ptr else some (.go sdp ptr)

/-- `sdp_message_parse` (src/osipparser2/sdp_message.c:1396-1635) on a text in its block. -/
def sdp_message_parse (sdp : Session) (block : List Char) : Option (Int × Session) := do
  let n := block.length + 1
  let x := mandatory (parse_v block) sdp block
  let x := Step.next x (optional (parse_s block))
  let x := Step.next x (mandatory (parse_o block))
  let x := Step.next x (optional (parse_s block))
  let x := Step.next x (optional (parse_i block))
  let x := Step.next x (optional (parse_u block))
  let x := Step.next x (many (parse_e block) n)
  let x := Step.next x (many (parse_p block) n)
  let x := Step.next x (optional (parse_c block))
  let x := Step.next x (many (parse_b block) n)
  let x := Step.next x (mandatory (parse_t block))
  let x := Step.next x ended
  let x := Step.next x (manyEnd (parse_r block) n)
  let x := Step.next x (optionalEnd (parse_t block))
  let x := Step.next x (timeLoop block n)
  let x := Step.next x (optionalEnd (parse_z block))
  let x := Step.next x (optionalEnd (parse_k block))
  let x := Step.next x (manyEnd (parse_a block) n)
  let x := Step.next x (mediaLoop block n)
  match ← x with
  | .stop i sdp => return (i, sdp)
  | .go sdp _ => return (OSIP_SUCCESS, sdp)

/-! ## Writing -/

/-- A growing string: the size of its block and the text so far. -/
abbrev Out := Nat × Str

/-- `__osip_sdp_append_string` (src/osipparser2/sdp_message.c:323-337): writing outside the block is undefined. -/
def append (o : Out) (s : Str) : Option Out :=
  let size := if o.2.length + s.length + 1 > o.1 then o.1 + s.length + 500 else o.1
  (put size o.2 s).map fun text => (size, text)

/-- Several calls of it. -/
def appends : Out → List Str → Option Out
  | o, [] => some o
  | o, s :: l => (append o s).bind fun o => appends o l

/-- A loop over a list (for example src/osipparser2/sdp_message.c:1931-1944); `some none` is the return of an error. -/
def appendList {α : Type} (f : Out → α → Option (Option Out)) : Out → List α → Option (Option Out)
  | o, [] => some (some o)
  | o, a :: l => andThen (f o a) fun o => appendList f o l

/-- A part that is written if it is there. -/
def appendOpt {α : Type} (f : Out → α → Option (Option Out)) (o : Out) (a : Option α) : Option (Option Out) :=
  a.elim (some (some o)) (f o)

/-- The three calls for a line with one value (for example src/osipparser2/sdp_message.c:1890-1892). -/
def appendLine (name : Char) (o : Out) (s : Str) : Option (Option Out) :=
  (appends o [[name, '='], s, ['\r', '\n']]).map some

/-- `sdp_append_connection` (src/osipparser2/sdp_message.c:1638-1665). -/
def sdp_append_connection (o : Out) (c : Connection) : Option (Option Out) :=
  match c.nettype, c.addrtype, c.addr with
  | some nettype, some addrtype, some addr => do
    let o ← appends o [['c', '='], nettype, [' '], addrtype, [' '], addr]
    let o ← c.ttl.elim (some o) fun s => appends o [['/'], s]
    let o ← c.int.elim (some o) fun s => appends o [['/'], s]
    (append o ['\r', '\n']).map some
  | _, _, _ => some none

/-- `sdp_append_bandwidth` (src/osipparser2/sdp_message.c:1667-1683). -/
def sdp_append_bandwidth (o : Out) (b : Bandwidth) : Option (Option Out) :=
  match b.bwtype, b.bandwidth with
  | some bwtype, some bandwidth => (appends o [['b', '='], bwtype, [':'], bandwidth, ['\r', '\n']]).map some
  | _, _ => some none

/-- `sdp_append_time_descr` (src/osipparser2/sdp_message.c:1685-1715). -/
def sdp_append_time_descr (o : Out) (t : TimeDescr) : Option (Option Out) :=
  match t.start, t.stop with
  | some start, some stop => do
    let o ← appends o [['t', '='], start, [' '], stop, ['\r', '\n']]
    appendList (appendLine 'r') o t.repeats
  | _, _ => some none

/-- `sdp_append_key` and `sdp_append_attribute` (src/osipparser2/sdp_message.c:1717-1732, :1734-1750). -/
def appendPair (name : Char) (o : Out) (a b : Option Str) : Option (Option Out) :=
  match a with
  | none => some none
  | some a => do
    let o ← appends o [[name, '='], a]
    let o ← b.elim (some o) fun s => appends o [[':'], s]
    (append o ['\r', '\n']).map some

def sdp_append_key (o : Out) (k : Key) : Option (Option Out) := appendPair 'k' o k.keytype k.keydata

def sdp_append_attribute (o : Out) (a : Attribute) : Option (Option Out) := appendPair 'a' o a.field a.value

/-- `sdp_append_media` (src/osipparser2/sdp_message.c:1752-1842). -/
def sdp_append_media (o : Out) (m : Media) : Option (Option Out) :=
  match m.media, m.port, m.proto with
  | some media, some port, some proto => do
    let o ← appends o [['m', '='], media, [' '], port]
    let o ← m.number.elim (some o) fun s => appends o [['/'], s]
    let o ← appends o [[' '], proto]
    andThen (appendList (fun o s => (appends o [[' '], s]).map some) o m.payloads) fun o =>
    andThen ((append o ['\r', '\n']).map some) fun o =>
    andThen (appendOpt (appendLine 'i') o m.info) fun o =>
    andThen (appendList sdp_append_connection o m.connections) fun o =>
    andThen (appendList sdp_append_bandwidth o m.bandwidths) fun o =>
    andThen (appendOpt sdp_append_key o m.key) fun o =>
    appendList sdp_append_attribute o m.attributes
  | _, _, _ => some none

/-- `BODY_MESSAGE_MAX_SIZE` (include/osipparser2/osip_message.h:119-125). -/
def BODY_MESSAGE_MAX_SIZE : Nat := 4000

/-- `sdp_message_to_str` (src/osipparser2/sdp_message.c:1844-2009): the code and `*dest`. -/
def sdp_message_to_str (sdp : Option Session) : Option (Int × Option Str) :=
  match sdp with
  | none => some (-1, none)
  | some sdp =>
    match sdp.version, sdp.username, sdp.sess_id, sdp.sess_version, sdp.nettype, sdp.addrtype, sdp.addr with
    | some version, some username, some sess_id, some sess_version, some nettype, some addrtype, some addr => do
      let o ← appends (BODY_MESSAGE_MAX_SIZE, []) [['v', '='], version, ['\r', '\n']]
      let o ← appends o [['o', '='], username, [' '], sess_id, [' '], sess_version, [' '], nettype, [' '], addrtype,
        [' '], addr, ['\r', '\n']]
      let r ←
        andThen (appendOpt (appendLine 's') o sdp.name) fun o =>
        andThen (appendOpt (appendLine 'i') o sdp.info) fun o =>
        andThen (appendOpt (appendLine 'u') o sdp.uri) fun o =>
        andThen (appendList (appendLine 'e') o sdp.emails) fun o =>
        andThen (appendList (appendLine 'p') o sdp.phones) fun o =>
        andThen (appendOpt sdp_append_connection o sdp.connection) fun o =>
        andThen (appendList sdp_append_bandwidth o sdp.bandwidths) fun o =>
        andThen (appendList sdp_append_time_descr o sdp.times) fun o =>
        andThen (appendOpt (appendLine 'z') o sdp.zone) fun o =>
        andThen (appendOpt sdp_append_key o sdp.key) fun o =>
        andThen (appendList sdp_append_attribute o sdp.attributes) fun o =>
        appendList sdp_append_media o sdp.medias
      return r.elim (-1, none) fun o => (OSIP_SUCCESS, some o.2)
    | _, _, _, _, _, _, _ => some (-1, none)

/-- What `*dest` of `sdp_message_clone` points to afterwards. -/
inductive Clone where
  | copy (sdp : Session)
  | freed
deriving DecidableEq, Repr

/-- `sdp_message_clone` (src/osipparser2/sdp_message.c:2048-2072). -/
def sdp_message_clone (sdp : Option Session) : Option (Int × Clone) := do
  let r ← sdp_message_to_str sdp
  if r.1 ≠ 0 then return (-1, .freed)
  let body ← r.2
  let q ← sdp_message_parse {} (body ++ [NUL])
  if q.1 ≠ 0 then return (-1, .freed)
  return (OSIP_SUCCESS, .copy q.2)

end Osip.Sdp
