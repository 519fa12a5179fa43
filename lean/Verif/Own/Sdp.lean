import Verif.Own.Lang

/-!
# What the functions for session descriptions do with memory

As Verif/Own/Parse.lean, for src/osipparser2/sdp_message.c and sdp_accessor.c. Every function below is what remains of the C function that it
cites when all but the memory operations are left out, in the order of the C code:
* a condition that is not about memory is `choose`; two errors in a row that do the same are one `mayFail`;
* a function that reads a line returns `false` for -1 and `true` for everything else: the line was read (WF), it is another line
  (ERR_DISCARD), or there was no memory (OSIP_NOMEM, which sdp_message_parse does not take for an error);
* the fields of the session are variables: those of a new session are NULL at first; a field that sdp_message_parse sets at one place only is a
  variable of the function that reads the line;
* `media` is the last media of the session, `mi` and `mk` are its fields i_info and k_key;
* the part of a line is given to the structure with `keep` as soon as it is set; it goes with the structure when that is given back;
* pointers into the text that is read or written are left out.
-/

set_option autoImplicit false

namespace Osip.Own.Sdp

/-- What sdp_message_parse is called with. -/
inductive How
  /-- a new session, and a text with its lines in the order of RFC 2327, each as often as it may be there -/
  | ordered
  /-- a new session and any text -/
  | new
  /-- a session without media that holds something already, and any text -/
  | old
  deriving DecidableEq, Repr

/-- The functions. `old`: the session may hold the line already. `unset`: the field is NULL. `twice`: as with `How.new`; otherwise
as with `How.ordered`. -/
inductive Fun
  | structInit | setNextToken
  | pairFree | timeDescrFree | connectionFree | mediaFree | messageFree
  | parseV (old : Bool) | parseO (old : Bool) | parseS | parseI | parseU (old : Bool) | parseE | parseC | parseB | parseT | parseR
  | parseZ (old : Bool) | parseK | parseA | parseM
  | messageParse (how : How)
  | appendString | appendConnection | appendPair | appendTimeDescr | appendMedia | toStr
  | messageClone (twice : Bool)
  | valueSet (unset : Bool) | infoSet (unset : Bool) | originSet (unset : Bool) | keySet (unset : Bool) | portSet
  | stringAdd | stringAddAt | timeDescrAdd | pairAdd | connectionAdd (unset : Bool) | mediaAdd
  | attributeDel | payloadDel
  deriving DecidableEq, Repr

abbrev P := Stmt Fun

open Stmt

/-- Statements one after the other. -/
def block : List P → P
  | [] => .skip
  | s :: l => l.foldl .seq s

/-- A condition may end in an error here. -/
def mayFail : P := .choose (.ret false) .skip

/-- `if (x == NULL) return ...;` -/
def need (x : Nat) : P := .ifNull x (.ret false) .skip

/-- `if (i != 0) { ...; return i; }`, also with `return -1` -/
def checkI (l : List P) : P := .ifOk .skip (block (l ++ [.retI]))

/-- `if (...) { ... }` -/
def perhaps (l : List P) : P := .choose (block l) .skip

/-! ## Making and giving back -/

/-- sdp_bandwidth_init (sdp_message.c:56-65), sdp_time_descr_init (sdp_message.c:77-87), sdp_key_init (sdp_message.c:100-109),
sdp_attribute_init (sdp_message.c:121-130), sdp_connection_init (sdp_message.c:142-154), sdp_media_init (sdp_message.c:169-214),
sdp_message_init (sdp_message.c:235-318); osip_list_init (osip_list.c:25-32) does not fail -/
def structInit : Fn Fun :=
  let x := 0
  { vars := 1, params := 1, fields := [], body := block [make x, need x, ret true] }

/-- __osip_set_next_token (osip_port.c:597-624). `*dest` is set only if there is something to copy. -/
def setNextToken : Fn Fun :=
  let dest := 0
  { vars := 1, params := 1, fields := [], body := block [mayFail, alloc dest, need dest, ret true] }

/-- A field of a structure is given back with it. -/
def give (x : Nat) : P := block [field x, free x, null x]

/-- osip_list_ofchar_free (osip_list.c:66-78): every string of a list is given back -/
def giveStrings (x : Nat) : P := loop (block [field x, ifNull x brk (free x)])

/-- osip_list_special_free (osip_list.c:51-64) with the `_free` function of the elements -/
def giveAll (f : Fun) (x : Nat) : P := loop (block [field x, ifNull x brk (block [call f [x]])])

/-- sdp_bandwidth_free (sdp_message.c:67-75), sdp_key_free (sdp_message.c:111-119), sdp_attribute_free (sdp_message.c:132-140) -/
def pairFree : Fn Fun :=
  let self := 0; let x := 1
  { vars := 2, params := 1, fields := [], body := block [ifNull self (ret true) skip, give x, give x, free self, ret true] }

/-- sdp_time_descr_free (sdp_message.c:89-98) -/
def timeDescrFree : Fn Fun :=
  let td := 0; let x := 1
  { vars := 2, params := 1, fields := [],
    body := block [ifNull td (ret true) skip, give x, give x, giveStrings x, free td, ret true] }

/-- sdp_connection_free (sdp_message.c:156-167) -/
def connectionFree : Fn Fun :=
  let connection := 0; let x := 1
  { vars := 2, params := 1, fields := [],
    body := block [ifNull connection (ret true) skip, give x, give x, give x, give x, give x, free connection, ret true] }

/-- sdp_media_free (sdp_message.c:216-232) -/
def mediaFree : Fn Fun :=
  let media := 0; let x := 1
  { vars := 2, params := 1, fields := [],
    body := block [
      ifNull media (ret true) skip,
      give x, give x, give x, give x,
      giveStrings x,
      give x,
      giveAll .connectionFree x,
      giveAll .pairFree x,
      giveAll .pairFree x,
      field x, call .pairFree [x],
      free media,
      ret true] }

/-- sdp_message_free (sdp_message.c:2012-2046) -/
def messageFree : Fn Fun :=
  let sdp := 0; let x := 1
  { vars := 2, params := 1, fields := [],
    body := block [
      ifNull sdp (ret true) skip,
      give x, give x, give x, give x, give x, give x, give x, give x, give x, give x,
      giveStrings x,
      giveStrings x,
      field x, call .connectionFree [x],
      giveAll .pairFree x,
      giveAll .timeDescrFree x,
      give x,
      field x, call .pairFree [x],
      giveAll .pairFree x,
      giveAll .mediaFree x,
      free sdp,
      ret true] }

/-! ## Reading -/

/-- The text ends before the line does, or this is another line. -/
def notHere : P := block [mayFail, perhaps [ret true]]

/-- A field of the session before the line is read. -/
def start (old : Bool) (x : Nat) : P := if old then field x else null x

/-- sdp_message_parse_v (sdp_message.c:339-378) -/
def parseV (old : Bool) : Fn Fun :=
  let sdp := 0; let v_version := 1
  { vars := 2, params := 1, fields := [(v_version, sdp)],
    body := block [
      start old v_version,
      notHere,
      use sdp,
      alloc v_version,
      ret true] }

/-- `i = __osip_set_next_token (&x, ...); if (i != 0) return -1;` -/
def tokenO (x : Nat) : P := block [call .setNextToken [x], checkI []]

/-- sdp_message_parse_o (sdp_message.c:380-469), without FIREFLY_BUG_SUPPORT -/
def parseO (old : Bool) : Fn Fun :=
  let sdp := 0; let o_username := 1; let o_sess_id := 2; let o_sess_version := 3; let o_nettype := 4; let o_addrtype := 5; let o_addr := 6
  { vars := 7, params := 1,
    fields := [(o_username, sdp), (o_sess_id, sdp), (o_sess_version, sdp), (o_nettype, sdp), (o_addrtype, sdp), (o_addr, sdp)],
    body := block [
      start old o_username, start old o_sess_id, start old o_sess_version, start old o_nettype, start old o_addrtype, start old o_addr,
      notHere,
      use sdp,
      tokenO o_username,
      tokenO o_sess_id,
      tokenO o_sess_version,
      tokenO o_nettype,
      tokenO o_addrtype,
      call .setNextToken [o_addr],
      ifOk skip (tokenO o_addr),
      ret true] }

/-- sdp_message_parse_s (sdp_message.c:471-523), without FIREFLY_BUG_SUPPORT -/
def parseS : Fn Fun :=
  let s_name := 0
  { vars := 1, params := 1, fields := [], body := block [notHere, alloc s_name, ret true] }

/-- sdp_message_parse_i (sdp_message.c:525-581); `i_info` is that of the session -/
def parseI : Fn Fun :=
  let i_info := 0; let mi := 1; let media := 2; let x := 3
  { vars := 4, params := 3, fields := [],
    body := block [
      notHere,
      alloc x,
      ifNull x (ret true) skip,
      ifNull media (copy i_info x) (block [use media, copy mi x]),
      ret true] }

/-- sdp_message_parse_u (sdp_message.c:583-622) -/
def parseU (old : Bool) : Fn Fun :=
  let sdp := 0; let u_uri := 1
  { vars := 2, params := 1, fields := [(u_uri, sdp)],
    body := block [start old u_uri, notHere, use sdp, alloc u_uri, ret true] }

/-- sdp_message_parse_e (sdp_message.c:624-666), sdp_message_parse_p (sdp_message.c:668-710) -/
def parseE : Fn Fun :=
  let e_email := 0
  { vars := 1, params := 0, fields := [],
    body := block [notHere, alloc e_email, ifNull e_email (ret true) skip, listAdd e_email, ret true] }

/-- `i = ..._init (&h); if (i != 0) return ERR_ERROR;` -/
def begun (h : Nat) : P := block [call .structInit [h], checkI [], fill h]

/-- `i = __osip_set_next_token (&(h->x), ...); if (i != 0) { ..._free (h); return -1; }` -/
def token (x h : Nat) : P := block [null x, call .setNextToken [x], checkI [free h], keep x]

/-- The same, where the value ends with CR or LF. -/
def tokenEol (x h : Nat) : P :=
  block [null x, call .setNextToken [x], ifOk skip (block [call .setNextToken [x], checkI [free h]]), keep x]

/-- sdp_message_parse_c (sdp_message.c:712-838); `x` is each of the fields of the connection -/
def parseC : Fn Fun :=
  let c_connection := 0; let media := 1; let c_header := 2; let x := 3
  { vars := 4, params := 2, fields := [],
    body := block [
      notHere,
      begun c_header,
      token x c_header,
      token x c_header,
      choose
        (block [token x c_header, choose (block [token x c_header, tokenEol x c_header]) (tokenEol x c_header)])
        (tokenEol x c_header),
      ifNull media (copy c_connection c_header) (block [use media, listAdd c_header]),
      ret true] }

/-- sdp_message_parse_b (sdp_message.c:840-912) -/
def parseB : Fn Fun :=
  let media := 0; let b_header := 1; let x := 2
  { vars := 3, params := 1, fields := [],
    body := block [
      notHere,
      begun b_header,
      token x b_header,
      tokenEol x b_header,
      ifNull media (listAdd b_header) (block [use media, listAdd b_header]),
      ret true] }

/-- sdp_message_parse_t (sdp_message.c:914-975) -/
def parseT : Fn Fun :=
  let t_header := 0; let x := 1
  { vars := 2, params := 0, fields := [],
    body := block [
      notHere,
      begun t_header,
      token x t_header,
      tokenEol x t_header,
      listAdd t_header,
      ret true] }

/-- sdp_message_parse_r (sdp_message.c:977-1026) -/
def parseR : Fn Fun :=
  let r_header := 0
  { vars := 1, params := 0, fields := [],
    body := block [notHere, mayFail, alloc r_header, ifNull r_header (ret true) skip, listAdd r_header, ret true] }

/-- sdp_message_parse_z (sdp_message.c:1028-1069) -/
def parseZ (old : Bool) : Fn Fun :=
  let sdp := 0; let z_adjustments := 1; let z_header := 2
  { vars := 3, params := 1, fields := [(z_adjustments, sdp)],
    body := block [
      start old z_adjustments,
      notHere,
      alloc z_header,
      ifNull z_header (ret true) skip,
      use sdp,
      copy z_adjustments z_header,
      ret true] }

/-- sdp_message_parse_k (sdp_message.c:1071-1159); `k_key` is that of the session -/
def parseK : Fn Fun :=
  let k_key := 0; let mk := 1; let media := 2; let k_header := 3; let x := 4
  { vars := 5, params := 3, fields := [],
    body := block [
      notHere,
      begun k_header,
      choose (block [token x k_header, tokenEol x k_header]) (tokenEol x k_header),
      ifNull media (copy k_key k_header) (block [use media, copy mk k_header]),
      ret true] }

/-- sdp_message_parse_a (sdp_message.c:1161-1250) -/
def parseA : Fn Fun :=
  let media := 0; let a_attribute := 1; let x := 2
  { vars := 3, params := 1, fields := [],
    body := block [
      notHere,
      begun a_attribute,
      choose (block [token x a_attribute, tokenEol x a_attribute]) (tokenEol x a_attribute),
      ifNull media (listAdd a_attribute) (block [use media, listAdd a_attribute]),
      ret true] }

/-- sdp_message_parse_m (sdp_message.c:1252-1393). When the new media is in the list, it is the last one; the fields of the media before it
are not set any more. -/
def parseM : Fn Fun :=
  let media := 0; let mi := 1; let mk := 2; let m_header := 3; let x := 4; let str := 5
  { vars := 6, params := 3, fields := [],
    body := block [
      notHere,
      begun m_header,
      token x m_header,
      choose (block [free m_header, ret false]) skip,
      choose (block [token x m_header, token x m_header]) (token x m_header),
      null x,
      call .setNextToken [x],
      ifOk skip (block [call .setNextToken [x], ifOk skip (block [call .setNextToken [x], checkI [free m_header]])]),
      keep x,
      loop (choose brk (block [call .setNextToken [str], checkI [free m_header], listAdd str])),
      perhaps [
        call .setNextToken [str],
        ifOk skip (block [call .setNextToken [str], checkI [free m_header]]),
        listAdd str],
      listAdd m_header,
      keep mi, null mi, keep mk, null mk,
      copy media m_header,
      ret true] }

/-- `ptr = next_buf; if (*ptr == '\0' || (*ptr == '\r') || (*ptr == '\n')) return OSIP_SUCCESS;` -/
def atEnd : P := perhaps [ret true]

/-- `i = 1; while (i == 1) { i = ...; if (i == -1) return -1; ptr = next_buf; }` -/
def lines (s : P) : P := loop (block [s, choose brk skip])

/-- The same, with the test for the end of the text. -/
def linesEnd (s : P) : P := loop (block [s, atEnd, choose brk skip])

/-- sdp_message_parse (sdp_message.c:1396-1636). A field that is not set any more belongs to its structure: s_name after the second line s=, the
fields of the session when there is a media. If the lines are in order, then s= is not read before o=, i_info, c_connection and k_key are set
once, before there is a media, and the fields of a media are set once. -/
def messageParse (how : How) : Fn Fun :=
  let sdp := 0; let s_name := 1; let i_info := 2; let c_connection := 3; let k_key := 4; let media := 5; let mi := 6; let mk := 7
  let old := decide (how = .old)
  let ordered := decide (how = .ordered)
  let settled := fun x => block [keep x, null x]
  let parse_s := block [call .parseS [s_name], checkI []]
  let parse_i := block [call .parseI [i_info, mi, media], checkI []]
  let parse_c := block [call .parseC [c_connection, media], checkI []]
  let parse_k := block [call .parseK [k_key, mk, media], checkI []]
  let parse_e := block [call .parseE [], checkI []]
  let parse_b := block [call .parseB [media], checkI []]
  let parse_t := block [call .parseT [], checkI []]
  let parse_r := block [call .parseR [], checkI []]
  let parse_a := block [call .parseA [media], checkI []]
  { vars := 8, params := 1,
    fields := [(s_name, sdp), (i_info, sdp), (c_connection, sdp), (k_key, sdp), (mi, media), (mk, media)],
    body := block [
      if old then skip else fill sdp,
      start old s_name, start old i_info, start old c_connection, start old k_key, null media, null mi, null mk,
      call (.parseV old) [sdp], checkI [],
      mayFail,
      if ordered then mayFail else parse_s,
      call (.parseO old) [sdp], checkI [],
      mayFail,
      parse_s,
      settled s_name,
      parse_i,
      if ordered then settled i_info else skip,
      call (.parseU old) [sdp], checkI [],
      lines parse_e,
      lines parse_e,
      parse_c,
      if ordered then settled c_connection else skip,
      lines parse_b,
      parse_t,
      mayFail,
      atEnd,
      linesEnd parse_r,
      parse_t,
      atEnd,
      loop (block [linesEnd parse_r, parse_t, atEnd, choose brk skip]),
      call (.parseZ old) [sdp], checkI [],
      atEnd,
      parse_k,
      if ordered then settled k_key else skip,
      atEnd,
      linesEnd parse_a,
      loop (block [
        call .parseM [media, mi, mk], checkI [],
        ifNull media skip (block [settled i_info, settled c_connection, settled k_key]),
        atEnd,
        if ordered then ifNull media mayFail (ifNull mi parse_i mayFail) else parse_i,
        atEnd,
        linesEnd (if ordered then ifNull media mayFail parse_c else parse_c),
        linesEnd parse_b,
        if ordered then ifNull media mayFail (ifNull mk parse_k mayFail) else parse_k,
        atEnd,
        linesEnd parse_a,
        choose brk skip]),
      ret true] }

/-! ## Writing -/

/-- __osip_sdp_append_string (sdp_message.c:323-337). The result of osip_realloc is not looked at. -/
def appendString : Fn Fun :=
  let string := 0
  { vars := 1, params := 1, fields := [], body := block [perhaps [realloc string string], use string, ret true] }

/-- `tmp = __osip_sdp_append_string (...);`, `n` times -/
def append (n : Nat) (string : Nat) : P := block (List.replicate n (call .appendString [string]))

/-- sdp_append_connection (sdp_message.c:1638-1665) -/
def appendConnection : Fn Fun :=
  let string := 0
  { vars := 1, params := 1, fields := [],
    body := block [mayFail, append 6 string, perhaps [append 2 string], perhaps [append 2 string], append 1 string, ret true] }

/-- sdp_append_bandwidth (sdp_message.c:1667-1683), sdp_append_key (sdp_message.c:1717-1732), sdp_append_attribute
(sdp_message.c:1734-1750) -/
def appendPair : Fn Fun :=
  let string := 0
  { vars := 1, params := 1, fields := [],
    body := block [mayFail, append 2 string, perhaps [append 2 string], append 1 string, ret true] }

/-- sdp_append_time_descr (sdp_message.c:1685-1715) -/
def appendTimeDescr : Fn Fun :=
  let string := 0
  { vars := 1, params := 1, fields := [],
    body := block [mayFail, append 5 string, loop (choose brk (append 3 string)), ret true] }

/-- sdp_append_media (sdp_message.c:1753-1842) -/
def appendMedia : Fn Fun :=
  let string := 0
  { vars := 1, params := 1, fields := [],
    body := block [
      mayFail,
      append 4 string,
      perhaps [append 2 string],
      append 2 string,
      loop (choose brk (append 2 string)),
      append 1 string,
      perhaps [append 3 string],
      loop (choose brk (block [call .appendConnection [string], checkI []])),
      loop (choose brk (block [call .appendPair [string], checkI []])),
      perhaps [call .appendPair [string], checkI []],
      loop (choose brk (block [call .appendPair [string], checkI []])),
      ret true] }

/-- sdp_message_to_str (sdp_message.c:1844-2010) -/
def toStr : Fn Fun :=
  let dest := 0; let string := 1
  { vars := 2, params := 1, fields := [],
    body := block [
      null dest,
      mayFail,
      alloc string, need string,
      append 16 string,
      perhaps [append 3 string],
      perhaps [append 3 string],
      perhaps [append 3 string],
      loop (choose brk (append 3 string)),
      loop (choose brk (append 3 string)),
      perhaps [call .appendConnection [string], checkI [free string]],
      loop (choose brk (block [call .appendPair [string], checkI [free string]])),
      loop (choose brk (block [call .appendTimeDescr [string], checkI [free string]])),
      perhaps [append 3 string],
      perhaps [call .appendPair [string], checkI [free string]],
      loop (choose brk (block [call .appendPair [string], checkI [free string]])),
      loop (choose brk (block [call .appendMedia [string], checkI [free string]])),
      copy dest string,
      ret true] }

/-- sdp_message_clone (sdp_message.c:2048-2072). `*dest` is not set to NULL when the session is given back. The text of a
session that was read is in order; the strings of a program may hold line ends, and thus lines. -/
def messageClone (twice : Bool) : Fn Fun :=
  let dest := 0; let body := 1
  { vars := 2, params := 1, fields := [],
    body := block [
      call .structInit [dest], checkI [],
      call .toStr [body], checkI [free dest],
      call (.messageParse (if twice then .new else .ordered)) [dest],
      free body,
      checkI [free dest],
      ret true] }

/-! ## Accessors -/

/-- `sdp->x = value;`: what the field held before is not given back -/
def store (unset : Bool) (x value : Nat) : P := block [if unset then null x else field x, null x, keep value]

/-- sdp_message_v_version_set (sdp_accessor.c:26-33), sdp_message_s_name_set (sdp_accessor.c:105-112), sdp_message_u_uri_set
(sdp_accessor.c:156-163), sdp_message_z_adjustments_set (sdp_accessor.c:435-442) -/
def valueSet (unset : Bool) : Fn Fun :=
  let sdp := 0; let value := 1; let x := 2
  { vars := 3, params := 2, fields := [], body := block [need sdp, use sdp, store unset x value, ret true] }

/-- sdp_message_i_info_set (sdp_accessor.c:122-138) -/
def infoSet (unset : Bool) : Fn Fun :=
  let sdp := 0; let info := 1; let x := 2
  { vars := 3, params := 2, fields := [], body := block [need sdp, use sdp, mayFail, store unset x info, ret true] }

/-- sdp_message_o_origin_set (sdp_accessor.c:43-55) -/
def originSet (unset : Bool) : Fn Fun :=
  let sdp := 0; let username := 1; let sess_id := 2; let sess_version := 3; let nettype := 4; let addrtype := 5; let addr := 6; let x := 7
  { vars := 8, params := 7, fields := [],
    body := block [
      need sdp,
      use sdp,
      store unset x username, store unset x sess_id, store unset x sess_version, store unset x nettype, store unset x addrtype,
      store unset x addr,
      ret true] }

/-- sdp_message_k_key_set (sdp_accessor.c:452-475) -/
def keySet (unset : Bool) : Fn Fun :=
  let sdp := 0; let keytype := 1; let keydata := 2; let key := 3; let x := 4
  { vars := 5, params := 3, fields := [],
    body := block [
      need sdp,
      use sdp,
      mayFail,
      call .structInit [key], checkI [],
      fill key,
      keep keytype, keep keydata,
      store unset x key,
      ret true] }

/-- sdp_message_m_port_set (sdp_accessor.c:725-736) -/
def portSet : Fn Fun :=
  let sdp := 0; let port := 1; let x := 2
  { vars := 3, params := 2, fields := [], body := block [use sdp, mayFail, field x, free x, null x, keep port, ret true] }

/-- sdp_message_e_email_add (sdp_accessor.c:173-180), sdp_message_p_phone_add (sdp_accessor.c:192-199) -/
def stringAdd : Fn Fun :=
  let sdp := 0; let string := 1
  { vars := 2, params := 2, fields := [], body := block [need sdp, use sdp, listAdd string, ret true] }

/-- sdp_message_r_repeat_add (sdp_accessor.c:408-420), sdp_message_m_payload_add (sdp_accessor.c:748-757), which does not test `sdp` -/
def stringAddAt : Fn Fun :=
  let sdp := 0; let string := 1
  { vars := 2, params := 2, fields := [], body := block [need sdp, use sdp, mayFail, listAdd string, ret true] }

/-- sdp_message_t_time_descr_add (sdp_accessor.c:365-380) -/
def timeDescrAdd : Fn Fun :=
  let sdp := 0; let start := 1; let stop := 2; let td := 3
  { vars := 4, params := 3, fields := [],
    body := block [
      need sdp,
      call .structInit [td], checkI [],
      fill td,
      keep start, keep stop,
      use sdp,
      listAdd td,
      ret true] }

/-- sdp_message_b_bandwidth_add (sdp_accessor.c:305-328), sdp_message_a_attribute_add (sdp_accessor.c:517-540); the two lists are one -/
def pairAdd : Fn Fun :=
  let sdp := 0; let a := 1; let b := 2; let self := 3
  { vars := 4, params := 3, fields := [],
    body := block [
      need sdp,
      use sdp,
      mayFail,
      call .structInit [self], checkI [],
      fill self,
      keep a, keep b,
      listAdd self,
      ret true] }

/-- sdp_message_c_connection_add (sdp_accessor.c:211-237) -/
def connectionAdd (unset : Bool) : Fn Fun :=
  let sdp := 0; let nettype := 1; let addrtype := 2; let addr := 3; let addr_multicast_ttl := 4; let addr_multicast_int := 5; let conn := 6
  let x := 7
  { vars := 8, params := 6, fields := [],
    body := block [
      need sdp,
      use sdp,
      mayFail,
      call .structInit [conn], checkI [],
      fill conn,
      keep nettype, keep addrtype, keep addr, keep addr_multicast_ttl, keep addr_multicast_int,
      choose (block [store unset x conn, ret true]) skip,
      listAdd conn,
      ret true] }

/-- sdp_message_m_media_add (sdp_accessor.c:678-693), which does not test `sdp` -/
def mediaAdd : Fn Fun :=
  let sdp := 0; let media := 1; let port := 2; let number_of_port := 3; let proto := 4; let med := 5
  { vars := 6, params := 5, fields := [],
    body := block [
      call .structInit [med], checkI [],
      fill med,
      keep media, keep port, keep number_of_port, keep proto,
      use sdp,
      listAdd med,
      ret true] }

/-- sdp_message_a_attribute_del (sdp_accessor.c:542-578), sdp_message_a_attribute_del_at_index (sdp_accessor.c:580-628): attributes leave the
list of the session or of a media and are given back -/
def attributeDel : Fn Fun :=
  let sdp := 0; let attr := 1
  { vars := 2, params := 1, fields := [],
    body := block [
      need sdp,
      use sdp,
      mayFail,
      null attr,
      loop (choose brk (perhaps [field attr, call .pairFree [attr]])),
      ret true] }

/-- sdp_message_m_payload_del (sdp_accessor.c:769-782), which does not test `sdp` -/
def payloadDel : Fn Fun :=
  let sdp := 0; let payload := 1
  { vars := 2, params := 1, fields := [], body := block [use sdp, mayFail, field payload, need payload, free payload, ret true] }

def code : Fun → Fn Fun
  | .structInit => structInit
  | .setNextToken => setNextToken
  | .pairFree => pairFree
  | .timeDescrFree => timeDescrFree
  | .connectionFree => connectionFree
  | .mediaFree => mediaFree
  | .messageFree => messageFree
  | .parseV old => parseV old
  | .parseO old => parseO old
  | .parseS => parseS
  | .parseI => parseI
  | .parseU old => parseU old
  | .parseE => parseE
  | .parseC => parseC
  | .parseB => parseB
  | .parseT => parseT
  | .parseR => parseR
  | .parseZ old => parseZ old
  | .parseK => parseK
  | .parseA => parseA
  | .parseM => parseM
  | .messageParse how => messageParse how
  | .appendString => appendString
  | .appendConnection => appendConnection
  | .appendPair => appendPair
  | .appendTimeDescr => appendTimeDescr
  | .appendMedia => appendMedia
  | .toStr => toStr
  | .messageClone twice => messageClone twice
  | .valueSet unset => valueSet unset
  | .infoSet unset => infoSet unset
  | .originSet unset => originSet unset
  | .keySet unset => keySet unset
  | .portSet => portSet
  | .stringAdd => stringAdd
  | .stringAddAt => stringAddAt
  | .timeDescrAdd => timeDescrAdd
  | .pairAdd => pairAdd
  | .connectionAdd unset => connectionAdd unset
  | .mediaAdd => mediaAdd
  | .attributeDel => attributeDel
  | .payloadDel => payloadDel

end Osip.Own.Sdp
