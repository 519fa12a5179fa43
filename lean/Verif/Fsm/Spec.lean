import Verif.Fsm.Model

/-!
# Vocabulary in which the transaction properties are stated

Nothing here refers to the handlers or tables of the model: only states, event types and the
effects an observer of the library sees.
-/

namespace Osip

/-- The four TERMINATED states. -/
def State.isTerminated : State → Bool
  | .ICT_TERMINATED | .IST_TERMINATED | .NICT_TERMINATED | .NIST_TERMINATED => true
  | _ => false

/-- The TERMINATED state of a kind of transaction. -/
def terminatedOf : Kind → State
  | .ICT => .ICT_TERMINATED
  | .IST => .IST_TERMINATED
  | .NICT => .NICT_TERMINATED
  | .NIST => .NIST_TERMINATED

def Eff.isKill : Eff → Bool
  | .kill _ => true
  | _ => false

def Eff.isTpErr : Eff → Bool
  | .tpErr _ _ => true
  | _ => false

def Eff.isSend : Eff → Bool
  | .send _ _ _ => true
  | _ => false

/-- Allocation or release of a message: invisible to peer and application. -/
def Eff.isMem : Eff → Bool
  | .newMsg _ | .freeMsg _ => true
  | _ => false

/-- A message callback with one of the given types. -/
def Eff.isCbIn (cs : List Cb) : Eff → Bool
  | .cb c _ => cs.contains c
  | _ => false

/-- The messages sent, in order. -/
def sends (es : List Eff) : List Ref :=
  es.filterMap (fun | .send r _ _ => some r | _ => none)

/-- The message callbacks, in order. -/
def callbacks (es : List Eff) : List (Cb × Option Ref) :=
  es.filterMap (fun | .cb c r => some (c, r) | _ => none)

/-- The arrows of RFC 3261 figures 5 (INVITE client), 6 (non-INVITE client), 7 (INVITE server) and
8 (non-INVITE server), transport errors aside; the `PRE` states are "not yet started".
`none`: the event has no arrow. In figure 7 an ACK in CONFIRMED is absorbed. -/
def rfcNext : Kind → State → EvType → Option State
  -- figure 5
  | .ICT, .ICT_PRE_CALLING, .SND_REQINVITE => some .ICT_CALLING
  | .ICT, .ICT_CALLING, .TIMEOUT_A => some .ICT_CALLING
  | .ICT, .ICT_CALLING, .TIMEOUT_B => some .ICT_TERMINATED
  | .ICT, .ICT_CALLING, .RCV_STATUS_1XX => some .ICT_PROCEEDING
  | .ICT, .ICT_CALLING, .RCV_STATUS_2XX => some .ICT_TERMINATED
  | .ICT, .ICT_CALLING, .RCV_STATUS_3456XX => some .ICT_COMPLETED
  | .ICT, .ICT_PROCEEDING, .RCV_STATUS_1XX => some .ICT_PROCEEDING
  | .ICT, .ICT_PROCEEDING, .RCV_STATUS_2XX => some .ICT_TERMINATED
  | .ICT, .ICT_PROCEEDING, .RCV_STATUS_3456XX => some .ICT_COMPLETED
  | .ICT, .ICT_COMPLETED, .RCV_STATUS_3456XX => some .ICT_COMPLETED
  | .ICT, .ICT_COMPLETED, .TIMEOUT_D => some .ICT_TERMINATED
  -- figure 6
  | .NICT, .NICT_PRE_TRYING, .SND_REQUEST => some .NICT_TRYING
  | .NICT, .NICT_TRYING, .TIMEOUT_E => some .NICT_TRYING
  | .NICT, .NICT_TRYING, .TIMEOUT_F => some .NICT_TERMINATED
  | .NICT, .NICT_TRYING, .RCV_STATUS_1XX => some .NICT_PROCEEDING
  | .NICT, .NICT_TRYING, .RCV_STATUS_2XX => some .NICT_COMPLETED
  | .NICT, .NICT_TRYING, .RCV_STATUS_3456XX => some .NICT_COMPLETED
  | .NICT, .NICT_PROCEEDING, .TIMEOUT_E => some .NICT_PROCEEDING
  | .NICT, .NICT_PROCEEDING, .TIMEOUT_F => some .NICT_TERMINATED
  | .NICT, .NICT_PROCEEDING, .RCV_STATUS_1XX => some .NICT_PROCEEDING
  | .NICT, .NICT_PROCEEDING, .RCV_STATUS_2XX => some .NICT_COMPLETED
  | .NICT, .NICT_PROCEEDING, .RCV_STATUS_3456XX => some .NICT_COMPLETED
  | .NICT, .NICT_COMPLETED, .TIMEOUT_K => some .NICT_TERMINATED
  -- figure 7
  | .IST, .IST_PRE_PROCEEDING, .RCV_REQINVITE => some .IST_PROCEEDING
  | .IST, .IST_PROCEEDING, .RCV_REQINVITE => some .IST_PROCEEDING
  | .IST, .IST_PROCEEDING, .SND_STATUS_1XX => some .IST_PROCEEDING
  | .IST, .IST_PROCEEDING, .SND_STATUS_2XX => some .IST_TERMINATED
  | .IST, .IST_PROCEEDING, .SND_STATUS_3456XX => some .IST_COMPLETED
  | .IST, .IST_COMPLETED, .RCV_REQINVITE => some .IST_COMPLETED
  | .IST, .IST_COMPLETED, .TIMEOUT_G => some .IST_COMPLETED
  | .IST, .IST_COMPLETED, .TIMEOUT_H => some .IST_TERMINATED
  | .IST, .IST_COMPLETED, .RCV_REQACK => some .IST_CONFIRMED
  | .IST, .IST_CONFIRMED, .RCV_REQACK => some .IST_CONFIRMED
  | .IST, .IST_CONFIRMED, .TIMEOUT_I => some .IST_TERMINATED
  -- figure 8
  | .NIST, .NIST_PRE_TRYING, .RCV_REQUEST => some .NIST_TRYING
  | .NIST, .NIST_TRYING, .SND_STATUS_1XX => some .NIST_PROCEEDING
  | .NIST, .NIST_TRYING, .SND_STATUS_2XX => some .NIST_COMPLETED
  | .NIST, .NIST_TRYING, .SND_STATUS_3456XX => some .NIST_COMPLETED
  | .NIST, .NIST_PROCEEDING, .RCV_REQUEST => some .NIST_PROCEEDING
  | .NIST, .NIST_PROCEEDING, .SND_STATUS_1XX => some .NIST_PROCEEDING
  | .NIST, .NIST_PROCEEDING, .SND_STATUS_2XX => some .NIST_COMPLETED
  | .NIST, .NIST_PROCEEDING, .SND_STATUS_3456XX => some .NIST_COMPLETED
  | .NIST, .NIST_COMPLETED, .RCV_REQUEST => some .NIST_COMPLETED
  | .NIST, .NIST_COMPLETED, .TIMEOUT_J => some .NIST_TERMINATED
  | _, _, _ => none

/-- A URI that has something to copy. -/
def UriOk (u : Uri) : Prop := u.host.isSome ∨ u.string.isSome

/-- A From/To/Route header whose URI, if any, has something to copy. -/
def FromOk (f : From) : Prop := ∀ u, f.url = some u → UriOk u

/-- What a 3xx-6xx response must contain for the library to be able to acknowledge it. -/
structure ResponseComplete (m : Msg) : Prop where
  from_ : ∃ f, m.from_ = some f ∧ FromOk f
  to : ∃ f, m.to = some f ∧ FromOk f
  call_id : ∃ c, m.call_id = some c ∧ c.number.isSome
  cseq : ∃ c, m.cseq = some c ∧ c.method.isSome ∧ c.number.isSome

/-- What an INVITE must contain for the library to be able to build an ACK from it. -/
structure InviteComplete (m : Msg) : Prop where
  version : m.sip_version.isSome
  req_uri : ∃ u, m.req_uri = some u ∧ UriOk u
  via : ∃ v vs, m.vias = v :: vs ∧ v.version.isSome ∧ v.protocol.isSome ∧ v.host.isSome
  routes : ∀ r ∈ m.routes, FromOk r

/-- The life of one message address as an observer of the trace sees it. -/
inductive Life
  | unborn | live | dead
deriving DecidableEq, Repr

/-- One effect seen by address `id`; `none`: a violation (allocated twice, used or freed while not
alive). -/
def Life.step (id : Nat) (l : Life) : Eff → Option Life
  | .newMsg i => if i = id then (if l = .unborn then some .live else none) else some l
  | .freeMsg i => if i = id then (if l = .live then some .dead else none) else some l
  | .send r _ _ => if r.id = id then (if l = .live then some l else none) else some l
  | .cb _ (some r) => if r.id = id then (if l = .live then some l else none) else some l
  | .cb _ none => some l
  | .tpErr _ _ => some l
  | .kill _ => some l

/-- The life of address `id` along a trace; `none` if the trace misuses the address. -/
def Life.along (id : Nat) : Life → List Eff → Option Life
  | l, [] => some l
  | l, e :: es => match l.step id e with
    | none => none
    | some l' => Life.along id l' es

/-- World `w` can be reached by a transaction of kind `k`: it was created for some request, and
some operations, all satisfying `O`, were performed on it. -/
def ReachO (O : Op → Prop) (k : Kind) (w : World) : Prop :=
  ∃ now1 now2 req t ops, transactionInit k now1 now2 req = some (.ok t) ∧
    (World.init t).run ops = some w ∧ ∀ o ∈ ops, O o

/-- Reachable by any operations. -/
abbrev Reach (k : Kind) (w : World) : Prop := ReachO (fun _ => True) k w

/-- Reachable by operations satisfying `O` in a transaction created for a request satisfying `R`. -/
def ReachFrom (R : Msg → Prop) (O : Op → Prop) (k : Kind) (w : World) : Prop :=
  ∃ now1 now2 req t ops, R req ∧ transactionInit k now1 now2 req = some (.ok t) ∧
    (World.init t).run ops = some w ∧ ∀ o ∈ ops, O o

/-- Operations in which timer events come only from the library's timer loop. -/
def TimersInOrder (o : Op) : Prop := ∀ t, o ≠ .timer t

/-- At every position of the trace, `Q` holds of what happened before and of the effect. -/
def Always (Q : List Eff → Eff → Prop) (tr : List Eff) : Prop :=
  ∀ pre x post, tr = pre ++ x :: post → Q pre x

end Osip
