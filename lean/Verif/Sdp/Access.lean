import Verif.Base
import Verif.Sdp.Model

/-!
# Session descriptions: the accessors

Model of src/osipparser2/sdp_accessor.c. Lists are those of `Verif.CList`, seen as sequences; they have fewer
than `2 ^ 31` elements. Indices are `int`. A session is `none` if the pointer is null, and `none` as a result is
undefined behaviour. Members that the code replaces without freeing them leak; the model does not see that.
The functions that set or read one member of the session (`v`, `o`, `s`, `u`, `z`) are left out.
-/

set_option autoImplicit false

namespace Osip.Sdp

open Osip

/-- `osip_list_get` (src/osipparser2/osip_list.c:178-200). -/
def listGet {α : Type} (l : List α) (pos : Int) : Option α :=
  if pos < 0 ∨ pos ≥ l.length then none else l[pos.toNat]?

/-- `osip_list_remove` (src/osipparser2/osip_list.c:259-297). -/
def listRemove {α : Type} (l : List α) (pos : Int) : List α :=
  if pos < 0 ∨ pos ≥ l.length then l else l.eraseIdx pos.toNat

/-- `(pos_media != -1) && (osip_list_size (&sdp->m_medias) < pos_media + 1)` (for example
src/osipparser2/sdp_accessor.c:220-221); the sum overflows for `INT_MAX`. -/
def mediaMissing (sdp : Session) (pos_media : Int) : Option Bool :=
  if pos_media = -1 then some false
  else if pos_media = 2147483647 then none
  else some ((sdp.medias.length : Int) < pos_media + 1)

/-- A change of the media at an index. -/
def changeMedia (sdp : Session) (pos : Int) (f : Media → Media) : Session :=
  { sdp with medias := sdp.medias.modify pos.toNat f }

/-- The frame of the functions that add a part to the session or to a media: the media that was looked up is
used without a test for null. -/
def addAt (missing : Int) (session : Session → Session) (media : Media → Media) (sdp : Option Session) (pos_media : Int) :
    Option (Int × Option Session) :=
  match sdp with
  | none => some (OSIP_BADPARAMETER, none)
  | some sdp => do
    if ← mediaMissing sdp pos_media then return (missing, some sdp)
    if pos_media = -1 then return (OSIP_SUCCESS, some (session sdp))
    let _ ← listGet sdp.medias pos_media
    return (OSIP_SUCCESS, some (changeMedia sdp pos_media media))

/-- `sdp_message_c_connection_add` (src/osipparser2/sdp_accessor.c:211-237). -/
def c_connection_add (sdp : Option Session) (pos_media : Int) (c : Connection) : Option (Int × Option Session) :=
  addAt (-1) (fun s => { s with connection := some c }) (fun m => { m with connections := m.connections ++ [c] }) sdp pos_media

/-- `sdp_message_b_bandwidth_add` (src/osipparser2/sdp_accessor.c:305-328). -/
def b_bandwidth_add (sdp : Option Session) (pos_media : Int) (b : Bandwidth) : Option (Int × Option Session) :=
  addAt OSIP_UNDEFINED_ERROR (fun s => { s with bandwidths := s.bandwidths ++ [b] })
    (fun m => { m with bandwidths := m.bandwidths ++ [b] }) sdp pos_media

/-- `sdp_message_k_key_set` (src/osipparser2/sdp_accessor.c:452-475). -/
def k_key_set (sdp : Option Session) (pos_media : Int) (k : Key) : Option (Int × Option Session) :=
  addAt OSIP_UNDEFINED_ERROR (fun s => { s with key := some k }) (fun m => { m with key := some k }) sdp pos_media

/-- `sdp_message_a_attribute_add` (src/osipparser2/sdp_accessor.c:517-540). -/
def a_attribute_add (sdp : Option Session) (pos_media : Int) (a : Attribute) : Option (Int × Option Session) :=
  addAt OSIP_UNDEFINED_ERROR (fun s => { s with attributes := s.attributes ++ [a] })
    (fun m => { m with attributes := m.attributes ++ [a] }) sdp pos_media

/-- `sdp_message_i_info_set` (src/osipparser2/sdp_accessor.c:122-138). -/
def i_info_set (sdp : Option Session) (pos_media : Int) (info : Option Str) : Int × Option Session :=
  match sdp with
  | none => (OSIP_BADPARAMETER, none)
  | some sdp =>
    if pos_media = -1 then (OSIP_SUCCESS, some { sdp with info := info })
    else if (listGet sdp.medias pos_media).isNone then (OSIP_UNDEFINED_ERROR, some sdp)
    else (OSIP_SUCCESS, some (changeMedia sdp pos_media fun m => { m with info := info }))

/-- The frame of the functions that read a part of the session or of a media. -/
def getAt {α : Type} (session : Session → Option α) (media : Media → Option α) (sdp : Option Session) (pos_media : Int) : Option α :=
  sdp.bind fun sdp => if pos_media = -1 then session sdp else (listGet sdp.medias pos_media).bind media

/-- `sdp_message_i_info_get` (src/osipparser2/sdp_accessor.c:140-154). -/
def i_info_get (sdp : Option Session) (pos_media : Int) : Option Str := getAt (·.info) (·.info) sdp pos_media

/-- `sdp_message_connection_get` (src/osipparser2/sdp_accessor.c:240-253). -/
def connection_get (sdp : Option Session) (pos_media pos : Int) : Option Connection :=
  getAt (·.connection) (fun m => listGet m.connections pos) sdp pos_media

/-- `sdp_message_bandwidth_get` (src/osipparser2/sdp_accessor.c:330-343). -/
def bandwidth_get (sdp : Option Session) (pos_media pos : Int) : Option Bandwidth :=
  getAt (fun s => listGet s.bandwidths pos) (fun m => listGet m.bandwidths pos) sdp pos_media

/-- `sdp_message_attribute_get` (src/osipparser2/sdp_accessor.c:631-644). -/
def attribute_get (sdp : Option Session) (pos_media pos : Int) : Option Attribute :=
  getAt (fun s => listGet s.attributes pos) (fun m => listGet m.attributes pos) sdp pos_media

/-- `sdp_message_k_keytype_get` and `sdp_message_k_keydata_get` (src/osipparser2/sdp_accessor.c:477-515); the
key is looked up in the same way by both. -/
def key_get (sdp : Option Session) (pos_media : Int) : Option (Option Key) :=
  match sdp with
  | none => some none
  | some sdp => do
    if pos_media = -1 then return sdp.key
    if ← mediaMissing sdp pos_media then return none
    let m ← listGet sdp.medias pos_media
    return m.key

/-! ## Deleting attributes -/

/-- What a loop does at one place: it goes on with another index and list, or it is done. -/
inductive Turn where
  | again (i : Int) (l : List Attribute)
  | done (l : List Attribute)
deriving DecidableEq, Repr

/-- Several turns of a loop; `again` is the place where it is after `n` turns. -/
def turns (f : Int → List Attribute → Option Turn) : Nat → Int → List Attribute → Option Turn
  | 0, i, l => some (.again i l)
  | n + 1, i, l => do
    match ← f i l with
    | .again i l => turns f n i l
    | .done l => return .done l

/-- `strcmp (a, b) == 0` of two strings that may be null. -/
def same (a b : Option Str) : Option Bool := do
  let a ← a
  let b ← b
  return a == b

/-- One turn of the loop over the attributes with a name (src/osipparser2/sdp_accessor.c:554-562, :568-576,
:593-601). -/
def delTurn (att_field : Option Str) (i : Int) (l : List Attribute) : Option Turn :=
  if i < l.length then do
    let attr ← listGet l i
    if ← same attr.field att_field then return .again i (listRemove l i)
    else return .again (i + 1) l
  else some (.done l)

/-- One turn of the loop of `sdp_message_a_attribute_del_at_index` over the attributes of a media
(src/osipparser2/sdp_accessor.c:612-626). -/
def delAtTurn (att_field : Option Str) (pos_attr : Int) (i : Int) (l : List Attribute) : Option Turn :=
  if i < l.length then
    if pos_attr = -1 then delTurn att_field i l
    else if (listGet l pos_attr).isSome then some (.again i (listRemove l pos_attr))
    else some (.again i l)
  else some (.done l)

/-- A run of one of these functions, as far as `n` turns of its loop go. -/
inductive Run where
  | running
  | returned (code : Int) (sdp : Option Session)
deriving DecidableEq, Repr

/-- The end of a loop. -/
def finish (x : Option Turn) (put : List Attribute → Session) : Option Run :=
  x.map fun
    | .again _ _ => .running
    | .done l => .returned OSIP_SUCCESS (some (put l))

/-- `sdp_message_a_attribute_del` (src/osipparser2/sdp_accessor.c:542-578). -/
def a_attribute_del (n : Nat) (sdp : Option Session) (pos_media : Int) (att_field : Option Str) : Option Run :=
  match sdp with
  | none => some (.returned OSIP_BADPARAMETER none)
  | some sdp => do
    if ← mediaMissing sdp pos_media then return .returned OSIP_UNDEFINED_ERROR (some sdp)
    if pos_media = -1 then
      finish (turns (delTurn att_field) n 0 sdp.attributes) fun l => { sdp with attributes := l }
    else
      match listGet sdp.medias pos_media with
      | none => return .returned OSIP_UNDEFINED_ERROR (some sdp)
      | some m => finish (turns (delTurn att_field) n 0 m.attributes) fun l =>
          changeMedia sdp pos_media fun m => { m with attributes := l }

/-- `sdp_message_a_attribute_del_at_index` (src/osipparser2/sdp_accessor.c:580-628). -/
def a_attribute_del_at_index (n : Nat) (sdp : Option Session) (pos_media : Int) (att_field : Option Str) (pos_attr : Int) : Option Run :=
  match sdp with
  | none => some (.returned OSIP_BADPARAMETER none)
  | some sdp => do
    if ← mediaMissing sdp pos_media then return .returned OSIP_UNDEFINED_ERROR (some sdp)
    if pos_media = -1 then
      if pos_attr = -1 then finish (turns (delTurn att_field) n 0 sdp.attributes) fun l => { sdp with attributes := l }
      else return .returned OSIP_SUCCESS (some { sdp with attributes := listRemove sdp.attributes pos_attr })
    else
      match listGet sdp.medias pos_media with
      | none => return .returned OSIP_UNDEFINED_ERROR (some sdp)
      | some m => finish (turns (delAtTurn att_field pos_attr) n 0 m.attributes) fun l =>
          changeMedia sdp pos_media fun m => { m with attributes := l }

/-! ## Times, media and payloads -/

/-- `sdp_message_t_time_descr_add` (src/osipparser2/sdp_accessor.c:365-380). -/
def t_time_descr_add (sdp : Option Session) (start stop : Option Str) : Int × Option Session :=
  sdp.elim (OSIP_BADPARAMETER, none) fun s => (OSIP_SUCCESS, some { s with times := s.times ++ [⟨start, stop, []⟩] })

/-- `sdp_message_r_repeat_add` (src/osipparser2/sdp_accessor.c:408-420). -/
def r_repeat_add (sdp : Option Session) (pos_time_descr : Int) (field : Str) : Int × Option Session :=
  sdp.elim (OSIP_BADPARAMETER, none) fun s =>
    if (listGet s.times pos_time_descr).isNone then (OSIP_UNDEFINED_ERROR, some s)
    else (OSIP_SUCCESS, some { s with times := s.times.modify pos_time_descr.toNat fun t => { t with repeats := t.repeats ++ [field] } })

/-- `sdp_message_r_repeat_get` (src/osipparser2/sdp_accessor.c:422-433). -/
def r_repeat_get (sdp : Option Session) (pos_time_descr pos_repeat : Int) : Option Str :=
  sdp.bind fun s => (listGet s.times pos_time_descr).bind fun t => listGet t.repeats pos_repeat

/-- `sdp_message_m_media_add` (src/osipparser2/sdp_accessor.c:678-693): the session is used without a test. -/
def m_media_add (sdp : Option Session) (media port number proto : Option Str) : Option (Int × Session) :=
  sdp.map fun s => (OSIP_SUCCESS, { s with medias := s.medias ++ [⟨media, port, number, proto, [], none, [], [], [], none⟩] })

/-- `sdp_message_m_media_get`, `_port_get`, `_number_of_port_get`, `_proto_get`
(src/osipparser2/sdp_accessor.c:695-723, :738-746): the media that they look up. -/
def m_media_get (sdp : Option Session) (pos_media : Int) : Option (Option Media) := sdp.map fun s => listGet s.medias pos_media

/-- `sdp_message_m_port_set` (src/osipparser2/sdp_accessor.c:725-736). -/
def m_port_set (sdp : Option Session) (pos_media : Int) (port : Option Str) : Option (Int × Session) :=
  sdp.map fun s => if (listGet s.medias pos_media).isNone then (OSIP_BADPARAMETER, s)
    else (OSIP_SUCCESS, changeMedia s pos_media fun m => { m with port := port })

/-- `sdp_message_m_payload_add` (src/osipparser2/sdp_accessor.c:748-757). -/
def m_payload_add (sdp : Option Session) (pos_media : Int) (payload : Str) : Option (Int × Session) :=
  sdp.map fun s => if (listGet s.medias pos_media).isNone then (OSIP_BADPARAMETER, s)
    else (OSIP_SUCCESS, changeMedia s pos_media fun m => { m with payloads := m.payloads ++ [payload] })

/-- `sdp_message_m_payload_get` (src/osipparser2/sdp_accessor.c:759-767). -/
def m_payload_get (sdp : Option Session) (pos_media pos : Int) : Option (Option Str) :=
  sdp.map fun s => (listGet s.medias pos_media).bind fun m => listGet m.payloads pos

/-- `sdp_message_m_payload_del` (src/osipparser2/sdp_accessor.c:769-782). -/
def m_payload_del (sdp : Option Session) (pos_media pos : Int) : Option (Int × Session) :=
  sdp.map fun s => (listGet s.medias pos_media).elim (OSIP_BADPARAMETER, s) fun m =>
    if (listGet m.payloads pos).isNone then (OSIP_UNDEFINED_ERROR, s)
    else (OSIP_SUCCESS, changeMedia s pos_media fun m => { m with payloads := listRemove m.payloads pos })

end Osip.Sdp
