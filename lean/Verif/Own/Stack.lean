import Verif.Own.Lang

/-!
# What the copying functions of src/osipparser2 and the functions of src/osip2 do with memory

As Verif/Own/Parse.lean, for the `_clone` functions, the dialogs, the transactions with their events and handlers, and the retransmissions of
the responses 2xx and of the ACK. Every function below is what remains of the C function that it cites when all but the memory operations are
left out, in the order of the C code:
* a condition that is not about memory is `choose`; two errors in a row that do the same are one `mayFail`;
* a structure that is only read (the message or the header to copy, ...) is no argument, and tests of it against NULL are conditions;
* the fields of a structure of src/osip2 are variables: those of a new structure are NULL at first (`opened`), those of an existing one are read
  with `field` and stay what they are when the function returns (`fields` of `Fn`);
* a field of a copied header is given to the copy with `keep` as soon as it is set; it goes with the copy when that is given back;
* a call of a function of the application (callbacks, sending) is left out; it does not give back the transaction, nor a message of it;
* locking is left out; a mutex and a semaphore are one block each.
-/

set_option autoImplicit false

namespace Osip.Own.Stack

/-- What a list holds. -/
inductive Elem
  | param | header | sender | via | acceptEncoding | contentType | contentLength | callInfo | www | authorization | authInfo | body
  deriving DecidableEq, Repr

/-- The functions. `ictInit via`: `via` tells that the request has a Via with a protocol. `osipRelease pending`: `pending`
tells that there may be retransmissions to come. -/
inductive Fun
  | structInit | bodyInit
  | listClone (e : Elem)
  | paramClone | uriClone | fromClone | viaClone | callIdClone | cseqClone | headerClone | contentTypeClone | contentLengthClone | callInfoClone
  | acceptEncodingClone | wwwClone | authorizationClone | authInfoClone | bodyClone | messageClone
  | callIdToStr
  | updateRouteSetAsUas | updateRouteSetAsUac | updateTagAsUac | matchAsUac | matchAsUas
  | dialogInit | dialogInitAsUac | dialogInitAsUas | dialogFree
  | setDestination | ictInit (via : Bool) | nictInit | istInit | nistInit
  | setTopvia | setFrom | setTo | setCallId | setCseq
  | fifoInit | fifoAdd
  | transactionInit | createTransaction | transactionFree2
  | eventNew | newOutgoing | eventFree
  | findAndAddEvent
  | takeRequest | takeResponse | ictCreateAck | ictRcv3456xx | ictRetransmitAck | serverRcvRequest | istRcvAck
  | transactionExecute | execute | timersExecute
  | osipInit | osipRelease (pending : Bool)
  | ixtInit | ixtFree | addIxt | start200ok | startAck | stopIxt
  deriving DecidableEq, Repr

abbrev P := Stmt Fun

open Stmt

/-- Statements one after the other. -/
def block : List P → P
  | [] => .skip
  | s :: l => l.foldl .seq s

/-- A condition may end in an error here. -/
def mayFail : P := .choose (.ret false) .skip

/-- The same; before the return some blocks are given back. -/
def mayFailWith (l : List P) : P := .choose (block (l ++ [.ret false])) .skip

/-- `if (x == NULL) return ...;` -/
def need (x : Nat) : P := .ifNull x (.ret false) .skip

/-- `if (x == NULL) { ...; return ...; }` -/
def needOr (x : Nat) (l : List P) : P := .ifNull x (block (l ++ [.ret false])) .skip

/-- `if (i != 0) { ...; return i; }` -/
def checkI (l : List P) : P := .ifOk .skip (block (l ++ [.retI]))

/-- The empty structure `x` is going to be filled. -/
def opened (x : Nat) (fields : List Nat) : P := block (.fill x :: fields.map .null)

/-- `if (...) { ... }` -/
def perhaps (l : List P) : P := .choose (block l) .skip

/-- Fields are given back, because their structure is. -/
def drop (l : List Nat) : List P := l.flatMap fun x => [free x, null x]

/-! ## Copies -/

/-- osip_uri_init (osip_uri.c:33-51), osip_uri_param_init (osip_uri.c:782-791), osip_from_init (osip_from.c:66-78), osip_via_init
(osip_via.c:96-108), osip_call_id_init (osip_call_id.c:63-72), osip_call_info_init (osip_call_info.c:62-74), osip_content_type_init
(osip_content_type.c:28-41), osip_content_length_init (osip_content_length.c:26-34), osip_cseq_init (osip_cseq.c:26-35),
osip_accept_encoding_init (osip_accept_encoding.c:67-78), osip_www_authenticate_init (osip_www_authenticate.c:27-35),
osip_authorization_init (osip_authorization.c:27-35), osip_authentication_info_init (osip_authentication_info.c:29-38), osip_header_init
(osip_header.c:201-210), osip_message_init (osip_message.c:30-84) -/
def structInit : Fn Fun :=
  let x := 0
  { vars := 1, params := 1, fields := [], body := block [make x, need x, ret true] }

/-- osip_body_init (osip_body.c:30-48) -/
def bodyInit : Fn Fun :=
  let self := 0; let headers := 1
  { vars := 2, params := 1, fields := [],
    body := block [
      make self, need self,
      alloc headers, needOr headers [free self, null self],
      keep headers,
      ret true] }

/-- The function that copies an element of a list. -/
def Elem.clone : Elem → Fun
  | .param => .paramClone
  | .header => .headerClone
  | .sender => .fromClone
  | .via => .viaClone
  | .acceptEncoding => .acceptEncodingClone
  | .contentType => .contentTypeClone
  | .contentLength => .contentLengthClone
  | .callInfo => .callInfoClone
  | .www => .wwwClone
  | .authorization => .authorizationClone
  | .authInfo => .authInfoClone
  | .body => .bodyClone

/-- osip_list_clone (osip_list.c:34-49). The result of osip_list_add is not looked at. -/
def listClone (e : Elem) : Fn Fun :=
  let data2 := 0
  { vars := 1, params := 0, fields := [],
    body := block [
      loop (choose brk (block [call e.clone [data2], checkI [], listAdd data2])),
      ret true] }

/-- `*dest = NULL; if (src == NULL) return OSIP_BADPARAMETER; i = ..._init (&copy); if (i != 0) return i;` -/
def begun (dest copy : Nat) : P := block [null dest, mayFail, call .structInit [copy], checkI [], fill copy]

/-- `copy->x = osip_strdup (src->x);`, perhaps, not tested -/
def dup (x : Nat) : P := perhaps [alloc x, keep x]

/-- `copy->x = osip_strdup (src->x); if (copy->x == NULL) { ..._free (copy); return OSIP_NOMEM; }` -/
def dupOr (x copy : Nat) : P := block [alloc x, needOr x [free copy], keep x]

/-- `i = osip_list_clone (...); if (i != 0) { ..._free (copy); return i; }` -/
def listOr (e : Elem) (copy : Nat) : P := block [call (.listClone e) [], checkI [free copy]]

/-- `i = ..._clone (src->x, &(copy->x)); if (i != 0) { ..._free (copy); return i; }` -/
def cloneOr (f : Fun) (x copy : Nat) : P := block [call f [x], checkI [free copy], keep x]

/-- osip_uri_param_clone (osip_uri.c:871-893), also known as osip_generic_param_clone (osip_message.h:411) -/
def paramClone : Fn Fun :=
  let dest := 0; let up := 1; let gname := 2; let gvalue := 3
  { vars := 4, params := 1, fields := [],
    body := block [
      begun dest up,
      alloc gname, keep gname,
      dup gvalue,
      copy dest up,
      ret true] }

/-- osip_uri_clone (osip_uri.c:740-780) -/
def uriClone : Fn Fun :=
  let dest := 0; let ur := 1; let scheme := 2; let username := 3; let password := 4; let host := 5; let port := 6; let string := 7
  { vars := 8, params := 1, fields := [],
    body := block [
      begun dest ur,
      dup scheme, null scheme, dup username, null username, dup password, null password, dup host, null host, dup port, null port,
      dup string, null string,
      listOr .param ur,
      listOr .param ur,
      copy dest ur,
      ret true] }

/-- osip_from_clone (osip_from.c:395-431), also known as osip_to_clone (osip_to.c:96-100), osip_contact_clone (osip_contact.c:126-130),
osip_route_clone (osip_route.h:76) and osip_record_route_clone (osip_record_route.h:76) -/
def fromClone : Fn Fun :=
  let dest := 0; let fr := 1; let displayname := 2; let url := 3
  { vars := 4, params := 1, fields := [],
    body := block [
      begun dest fr,
      perhaps [dupOr displayname fr],
      perhaps [cloneOr .uriClone url fr],
      listOr .param fr,
      copy dest fr,
      ret true] }

/-- osip_via_clone (osip_via.c:416-472) -/
def viaClone : Fn Fun :=
  let dest := 0; let vi := 1; let version := 2; let protocol := 3; let host := 4; let port := 5; let comment := 6
  { vars := 7, params := 1, fields := [],
    body := block [
      begun dest vi,
      dupOr version vi,
      dupOr protocol vi,
      dupOr host vi,
      perhaps [dupOr port vi],
      perhaps [dupOr comment vi],
      listOr .param vi,
      copy dest vi,
      ret true] }

/-- osip_call_id_clone (osip_call_id.c:180-201) -/
def callIdClone : Fn Fun :=
  let dest := 0; let ci := 1; let number := 2; let host := 3
  { vars := 4, params := 1, fields := [],
    body := block [
      begun dest ci,
      alloc number, keep number,
      dup host,
      copy dest ci,
      ret true] }

/-- osip_cseq_clone (osip_cseq.c:169-193) -/
def cseqClone : Fn Fun :=
  let dest := 0; let cs := 1; let method := 2; let number := 3
  { vars := 4, params := 1, fields := [],
    body := block [
      null dest,
      mayFail,
      call .structInit [cs], checkI [free cs],
      fill cs,
      alloc method, keep method,
      alloc number, keep number,
      copy dest cs,
      ret true] }

/-- osip_header_clone (osip_header.c:284-315) -/
def headerClone : Fn Fun :=
  let dest := 0; let he := 1; let hname := 2; let hvalue := 3
  { vars := 4, params := 1, fields := [],
    body := block [
      begun dest he,
      dupOr hname he,
      perhaps [dupOr hvalue he],
      copy dest he,
      ret true] }

/-- osip_content_type_clone (osip_content_type.c:210-244), also known as osip_accept_clone (osip_accept.h:76) -/
def contentTypeClone : Fn Fun :=
  let dest := 0; let ct := 1; let type := 2; let subtype := 3; let param := 4
  { vars := 5, params := 1, fields := [],
    body := block [
      begun dest ct,
      dup type,
      dup subtype,
      loop (choose brk (block [call .paramClone [param], checkI [free ct], listAdd param])),
      copy dest ct,
      ret true] }

/-- osip_content_length_clone (osip_content_length.c:117-143), also known as osip_allow_clone (osip_allow.h:75), osip_content_encoding_clone
(osip_content_encoding.h:76) and osip_mime_version_clone (osip_mime_version.h:76) -/
def contentLengthClone : Fn Fun :=
  let dest := 0; let cl := 1; let value := 2
  { vars := 3, params := 1, fields := [],
    body := block [
      begun dest cl,
      perhaps [dupOr value cl],
      copy dest cl,
      ret true] }

/-- osip_call_info_clone (osip_call_info.c:173-201), also known as osip_alert_info_clone (osip_alert_info.h:75) and osip_error_info_clone
(osip_error_info.h:75) -/
def callInfoClone : Fn Fun :=
  let dest := 0; let ct := 1; let element := 2
  { vars := 3, params := 1, fields := [],
    body := block [
      begun dest ct,
      dupOr element ct,
      listOr .param ct,
      copy dest ct,
      ret true] }

/-- osip_accept_encoding_clone (osip_accept_encoding.c:165-201), also known as osip_accept_language_clone (osip_accept_language.h:75) -/
def acceptEncodingClone : Fn Fun :=
  let dest := 0; let ct := 1; let element := 2; let param := 3
  { vars := 4, params := 1, fields := [],
    body := block [
      begun dest ct,
      dupOr element ct,
      loop (choose brk (block [call .paramClone [param], checkI [free ct], listAdd param])),
      copy dest ct,
      ret true] }

/-- osip_www_authenticate_clone (osip_www_authenticate.c:644-730), also known as osip_proxy_authenticate_clone (osip_proxy_authenticate.h:75);
`x` is each of the eleven fields -/
def wwwClone : Fn Fun :=
  let dest := 0; let wa := 1; let x := 2
  { vars := 3, params := 1, fields := [],
    body := block ([
      begun dest wa,
      dupOr x wa] ++
      List.replicate 10 (perhaps [dupOr x wa]) ++ [
      copy dest wa,
      ret true]) }

/-- osip_authorization_clone (osip_authorization.c:719-864), also known as osip_proxy_authorization_clone (osip_proxy_authorization.h:76). The
new string is tested for auth_type, username, uri, digest and cnonce; for the others the test is about the string that was copied, which is not
NULL there. -/
def authorizationClone : Fn Fun :=
  let dest := 0; let au := 1; let x := 2
  let tested := perhaps [dupOr x au]
  let untested := block [dup x, null x]
  { vars := 3, params := 1, fields := [],
    body := block [
      begun dest au,
      tested, tested,
      untested, untested,
      tested,
      untested,
      tested,
      untested,
      tested,
      untested, untested, untested, untested, untested, untested, untested, untested,
      copy dest au,
      ret true] }

/-- osip_authentication_info_clone (osip_authentication_info.c:529-567), also known as osip_proxy_authentication_info_clone
(osip_proxy_authentication_info.h:75); `x` is each of the eleven fields -/
def authInfoClone : Fn Fun :=
  let dest := 0; let wa := 1; let x := 2
  { vars := 3, params := 1, fields := [],
    body := block ([begun dest wa] ++ List.replicate 11 (block [dup x, null x]) ++ [copy dest wa, ret true]) }

/-- osip_body_clone (osip_body.c:75-114). `*dest` is not set on an error. -/
def bodyClone : Fn Fun :=
  let dest := 0; let self := 1; let body := 2; let content_type := 3
  { vars := 4, params := 1, fields := [],
    body := block [
      mayFail,
      call .bodyInit [self], checkI [],
      fill self,
      dupOr body self,
      perhaps [cloneOr .contentTypeClone content_type self],
      listOr .header self,
      copy dest self,
      ret true] }

/-- osip_message_clone (osip_message.c:172-373), without MINISIZE -/
def messageClone : Fn Fun :=
  let dest := 0; let self := 1; let x := 2
  let str := perhaps [dupOr x self]
  let one (f : Fun) := block [perhaps [cloneOr f x self], null x]
  { vars := 3, params := 1, fields := [],
    body := block [
      begun dest self,
      str, str, str,
      one .uriClone,
      listOr .contentType self, listOr .acceptEncoding self, listOr .acceptEncoding self, listOr .callInfo self, listOr .contentLength self,
      listOr .authInfo self, listOr .contentLength self, listOr .callInfo self, listOr .authInfo self, listOr .callInfo self,
      listOr .authorization self,
      one .callIdClone,
      listOr .sender self,
      one .contentLengthClone,
      one .contentTypeClone,
      one .cseqClone,
      one .fromClone,
      one .contentLengthClone,
      listOr .www self, listOr .authorization self, listOr .sender self, listOr .sender self,
      one .fromClone,
      listOr .via self, listOr .www self, listOr .header self, listOr .body self,
      str,
      copy dest self,
      ret true] }

/-! ## osip_dialog.c -/

/-- osip_call_id_to_str (osip_call_id.c:130-150) -/
def callIdToStr : Fn Fun :=
  let dest := 0
  { vars := 1, params := 1, fields := [], body := block [null dest, mayFail, alloc dest, need dest, ret true] }

/-- osip_dialog_update_route_set_as_uas (osip_dialog.c:35-60) -/
def updateRouteSetAsUas : Fn Fun :=
  let dialog := 0; let remote_contact_uri := 1
  { vars := 2, params := 1, fields := [(remote_contact_uri, dialog)],
    body := block [
      null remote_contact_uri,
      need dialog,
      mayFail,
      use dialog, field remote_contact_uri,
      perhaps [
        ifNull remote_contact_uri skip (free remote_contact_uri),
        null remote_contact_uri,
        call .fromClone [remote_contact_uri], checkI []],
      ret true] }

/-- osip_dialog_update_route_set_as_uac (osip_dialog.c:74-126); `rr` is an element of the route set, `rr2` a new one -/
def updateRouteSetAsUac : Fn Fun :=
  let dialog := 0; let remote_contact_uri := 1; let rr := 2; let rr2 := 3
  { vars := 4, params := 1, fields := [(remote_contact_uri, dialog)],
    body := block [
      null remote_contact_uri,
      need dialog,
      mayFail,
      use dialog, field remote_contact_uri,
      perhaps [
        ifNull remote_contact_uri skip (free remote_contact_uri),
        null remote_contact_uri,
        call .fromClone [remote_contact_uri], checkI []],
      perhaps [loop (block [field rr, ifNull rr brk (block [free rr, null rr])])],
      perhaps [loop (choose brk (block [call .fromClone [rr2], checkI [], listAdd rr2]))],
      ret true] }

/-- osip_dialog_update_tag_as_uac (osip_dialog.c:128-152) -/
def updateTagAsUac : Fn Fun :=
  let dialog := 0; let remote_tag := 1
  { vars := 2, params := 1, fields := [(remote_tag, dialog)],
    body := block [
      null remote_tag,
      need dialog,
      mayFail,
      use dialog, field remote_tag,
      ifNull remote_tag skip (ret false),
      choose (null remote_tag) (alloc remote_tag),
      ret true] }

/-- osip_dialog_match_as_uac (osip_dialog.c:154-228) -/
def matchAsUac : Fn Fun :=
  let tmp := 0
  { vars := 1, params := 0, fields := [],
    body := block [
      mayFail,
      call .callIdToStr [tmp], checkI [],
      use tmp,
      mayFailWith [free tmp],
      free tmp,
      mayFail,
      ret true] }

/-- osip_dialog_match_as_uas (osip_dialog.c:230-296) -/
def matchAsUas : Fn Fun :=
  let tmp := 0
  { vars := 1, params := 0, fields := [],
    body := block [
      mayFail,
      call .callIdToStr [tmp], checkI [],
      use tmp,
      mayFailWith [free tmp],
      free tmp,
      mayFail,
      ret true] }

/-- What osip_dialog_free gives back before the dialog (osip_dialog.c:491-498), apart from the route set. -/
def dialogFields (remote_contact_uri local_uri remote_uri line_param remote_tag local_tag call_id : Nat) : List P :=
  drop [remote_contact_uri, local_uri, remote_uri, line_param, remote_tag, local_tag, call_id]

/-- __osip_dialog_init (osip_dialog.c:298-418). The results of osip_strdup are not looked at. -/
def dialogInit : Fn Fun :=
  let dialog := 0; let call_id := 1; let local_tag := 2; let remote_tag := 3; let line_param := 4; let remote_uri := 5; let local_uri := 6
  let remote_contact_uri := 7; let rr2 := 8
  let fail := dialogFields remote_contact_uri local_uri remote_uri line_param remote_tag local_tag call_id ++ [free dialog, null dialog]
  { vars := 9, params := 1,
    fields := [(call_id, dialog), (local_tag, dialog), (remote_tag, dialog), (line_param, dialog), (remote_uri, dialog), (local_uri, dialog),
      (remote_contact_uri, dialog)],
    body := block [
      null dialog,
      mayFail,
      make dialog, need dialog,
      opened dialog [call_id, local_tag, remote_tag, line_param, remote_uri, local_uri, remote_contact_uri],
      call .callIdToStr [call_id], checkI fail,
      mayFailWith fail,
      alloc local_tag,
      perhaps [alloc remote_tag],
      perhaps [alloc line_param],
      loop (choose brk (block [call .fromClone [rr2], checkI fail, listAdd rr2])),
      call .fromClone [remote_uri], checkI fail,
      call .fromClone [local_uri], checkI fail,
      choose
        (block [call .fromClone [remote_contact_uri], checkI fail])
        (null remote_contact_uri),
      ret true] }

/-- osip_dialog_init_as_uac (osip_dialog.c:420-436) -/
def dialogInitAsUac : Fn Fun :=
  let dialog := 0
  { vars := 1, params := 1, fields := [],
    body := block [call .dialogInit [dialog], checkI [null dialog], use dialog, ret true] }

/-- osip_dialog_init_as_uas (osip_dialog.c:464-484), osip_dialog_init_as_uac_with_remote_request (osip_dialog.c:439-462) -/
def dialogInitAsUas : Fn Fun :=
  let dialog := 0
  { vars := 1, params := 1, fields := [],
    body := block [null dialog, mayFail, call .dialogInit [dialog], checkI [null dialog], use dialog, ret true] }

/-- osip_dialog_free (osip_dialog.c:486-500); `x` is each of the fields, `rr` an element of the route set -/
def dialogFree : Fn Fun :=
  let dialog := 0; let x := 1; let rr := 2
  let give := [field x, free x, null x]
  { vars := 3, params := 1, fields := [],
    body := block ([
      need dialog,
      use dialog] ++
      give ++ give ++ give ++ [
      loop (block [field rr, ifNull rr brk (block [free rr, null rr])])] ++
      give ++ give ++ give ++ give ++ [
      free dialog,
      ret true]) }

/-! ## ict.c, nict.c, ist.c, nist.c -/

/-- osip_ict_set_destination (ict.c:163-173), osip_nict_set_destination (nict.c:154-164); `destination` is the field, `given` the argument -/
def setDestination : Fn Fun :=
  let ict := 0; let destination := 1; let given := 2
  { vars := 3, params := 3, fields := [],
    body := block [
      need ict,
      use ict,
      ifNull destination skip (free destination),
      copy destination given,
      ret true] }

/-- `osip_ict_set_destination (ict, osip_strdup (...), port)` -/
def setTo' (ict destination tmp : Nat) : P := block [alloc tmp, call .setDestination [ict, destination, tmp]]

/-- __osip_ict_init (ict.c:26-149). On an error `*ict` still points to the block that was given back (ict.c:46, 51). -/
def ictInit (via : Bool) : Fn Fun :=
  let ict := 0; let destination := 1; let tmp := 2
  { vars := 3, params := 1, fields := [(destination, ict)],
    body := block [
      null destination,
      make ict, need ict,
      if via then skip else mayFailWith [free ict],
      fill ict,
      choose (setTo' ict destination tmp) (choose (setTo' ict destination tmp) (choose (setTo' ict destination tmp) (setTo' ict destination tmp))),
      ret true] }

/-- __osip_nict_init (nict.c:26-140) -/
def nictInit : Fn Fun :=
  let nict := 0; let destination := 1; let tmp := 2
  { vars := 3, params := 1, fields := [(destination, nict)],
    body := block [
      null destination,
      make nict, need nict,
      mayFailWith [free nict, null nict],
      fill nict,
      choose (setTo' nict destination tmp)
        (choose (setTo' nict destination tmp) (choose (setTo' nict destination tmp) (setTo' nict destination tmp))),
      ret true] }

/-- __osip_ist_init (ist.c:25-73) -/
def istInit : Fn Fun :=
  let ist := 0
  { vars := 1, params := 1, fields := [],
    body := block [make ist, need ist, mayFailWith [free ist, null ist], fill ist, ret true] }

/-- __osip_nist_init (nist.c:26-66) -/
def nistInit : Fn Fun :=
  let nist := 0
  { vars := 1, params := 1, fields := [],
    body := block [make nist, need nist, mayFailWith [free nist, null nist], fill nist, ret true] }

/-! ## osip_transaction.c, port_fifo.c -/

/-- __osip_transaction_set_topvia and so on; `x` is the field -/
def setClone (f : Fun) : Fn Fun :=
  let x := 0
  { vars := 1, params := 1, fields := [], body := block [call f [x], ifOk (ret true) skip, null x, retI] }

/-- __osip_transaction_set_topvia (osip_transaction.c:40-52) -/
def setTopvia : Fn Fun := setClone .viaClone

/-- __osip_transaction_set_from (osip_transaction.c:54-66) -/
def setFrom : Fn Fun := setClone .fromClone

/-- __osip_transaction_set_to (osip_transaction.c:68-80) -/
def setTo : Fn Fun := setClone .fromClone

/-- __osip_transaction_set_call_id (osip_transaction.c:82-94) -/
def setCallId : Fn Fun := setClone .callIdClone

/-- __osip_transaction_set_cseq (osip_transaction.c:96-108) -/
def setCseq : Fn Fun := setClone .cseqClone

/-- osip_fifo_init (port_fifo.c:28-39); the queue owns the mutex and the semaphore -/
def fifoInit : Fn Fun :=
  let ff := 0; let qislocked := 1; let qisempty := 2
  { vars := 3, params := 1, fields := [],
    body := block [use ff, alloc qislocked, keep qislocked, alloc qisempty, keep qisempty, ret true] }

/-- osip_fifo_add (port_fifo.c:41-56). The result of osip_list_add is not looked at. -/
def fifoAdd : Fn Fun :=
  let el := 0
  { vars := 1, params := 1, fields := [], body := block [listAdd el, ret true] }

/-- osip_transaction_init (osip_transaction.c:110-239). The list of the transactions does not own the transaction. -/
def transactionInit : Fn Fun :=
  let transaction := 0; let topvia := 1; let from' := 2; let to := 3; let callid := 4; let cseq := 5; let ff := 6; let context := 7
  let fail := drop [context, ff, topvia, from', to, callid, cseq] ++ [free transaction, null transaction]
  { vars := 8, params := 1,
    fields := [(topvia, transaction), (from', transaction), (to, transaction), (callid, transaction), (cseq, transaction), (ff, transaction),
      (context, transaction)],
    body := block [
      null transaction,
      mayFail,
      make transaction, need transaction,
      opened transaction [topvia, from', to, callid, cseq, ff, context],
      mayFailWith fail,
      call .setTopvia [topvia], checkI fail,
      call .setFrom [from'], checkI fail,
      call .setTo [to], checkI fail,
      call .setCallId [callid], checkI fail,
      call .setCseq [cseq], checkI fail,
      alloc ff, needOr ff fail,
      call .fifoInit [ff],
      choose
        (choose (block [call (.ictInit true) [context], checkI fail]) (block [call .istInit [context], checkI fail]))
        (choose (block [call .nictInit [context], checkI fail]) (block [call .nistInit [context], checkI fail])),
      ret true] }

/-- osip_create_transaction (osip.c:817-869); `transaction` is what it returns -/
def createTransaction : Fn Fun :=
  let result := 0; let transaction := 1
  { vars := 2, params := 1, fields := [],
    body := block [
      null result,
      mayFail,
      call .transactionInit [transaction], ifOk skip (ret false),
      use transaction,
      copy result transaction,
      ret true] }

/-- osip_transaction_free2 (osip_transaction.c:273-319), called by osip_transaction_free (osip_transaction.c:255-269). `context` is the context
with its destination, `evt` an event of the queue. -/
def transactionFree2 : Fn Fun :=
  let transaction := 0; let x := 1; let evt := 2; let sip := 3; let ff := 4; let destination := 5
  let give := [field x, free x, null x]
  { vars := 6, params := 1, fields := [],
    body := block ([
      need transaction,
      use transaction,
      field x,
      ifNull x skip (block [field destination, free destination, null destination, free x]),
      null x,
      field ff,
      ifNull ff skip (block [
        loop (block [field evt, ifNull evt brk (block [field sip, free sip, null sip, free evt, null evt])]),
        free ff]),
      null ff, null evt] ++
      give ++ give ++ give ++
      give ++ give ++ give ++ give ++ give ++ [
      free transaction,
      ret true]) }

/-! ## Events -/

/-- __osip_event_new (osip_event.c:73-85); `sipevent` is what it returns -/
def eventNew : Fn Fun :=
  let sipevent := 0
  { vars := 1, params := 1, fields := [], body := block [alloc sipevent, need sipevent, use sipevent, ret true] }

/-- osip_new_outgoing_sipmessage (osip_event.c:91-112); `sipevent` is what it returns, it owns the message -/
def newOutgoing : Fn Fun :=
  let sip := 0; let sipevent := 1
  { vars := 2, params := 2, fields := [],
    body := block [
      null sipevent,
      need sip,
      use sip,
      mayFail,
      alloc sipevent, need sipevent,
      keep sip,
      ret true] }

/-- osip_event_free (osip_event.c:153-160) -/
def eventFree : Fn Fun :=
  let event := 0; let sip := 1
  { vars := 2, params := 1, fields := [],
    body := block [
      ifNull event skip (block [use event, field sip, free sip, free event]),
      ret true] }

/-- osip_find_transaction_and_add_event (osip.c:701-709), __osip_find_transaction (osip.c:719-815) with osip_transaction_add_event
(osip_transaction.c:321-331) -/
def findAndAddEvent : Fn Fun :=
  let evt := 0
  { vars := 1, params := 1, fields := [],
    body := block [
      need evt,
      use evt,
      mayFail,
      call .fifoAdd [evt],
      ret true] }

/-! ## Handlers; `sip` is the message of the event -/

/-- ict_snd_invite (ict_fsm.c:97-142), nict_snd_request (nict_fsm.c:110-183); `orig_request` is NULL before, since the state is left for good -/
def takeRequest : Fn Fun :=
  let sip := 0
  { vars := 1, params := 1, fields := [], body := block [keep sip, ret true] }

/-- ict_rcv_1xx (ict_fsm.c:204-215), ict_rcv_2xx (ict_fsm.c:217-231), ist_snd_1xx (ist_fsm.c:182-202), ist_snd_2xx (ist_fsm.c:204-225),
ist_snd_3456xx (ist_fsm.c:227-261), nict_rcv_1xx (nict_fsm.c:264-283), nict_rcv_23456xx (nict_fsm.c:285-311), nist_snd_1xx (nist_fsm.c:154-173),
nist_snd_23456xx (nist_fsm.c:175-209) -/
def takeResponse : Fn Fun :=
  let sip := 0; let last_response := 1
  { vars := 2, params := 1, fields := [],
    body := block [
      field last_response,
      ifNull last_response skip (free last_response),
      keep sip,
      ret true] }

/-- ict_create_ack (ict_fsm.c:233-356); `result` is what it returns -/
def ictCreateAck : Fn Fun :=
  let result := 0; let ack := 1; let x := 2; let method := 3; let via := 4; let route := 5
  let fail := [free ack]
  let one (f : Fun) := block [call f [x], ifOk skip (block (fail ++ [ret false])), keep x]
  { vars := 6, params := 1, fields := [],
    body := block [
      null result,
      call .structInit [ack], ifOk skip (ret false),
      fill ack,
      one .fromClone,
      one .fromClone,
      one .callIdClone,
      one .cseqClone,
      field method, free method, alloc method, needOr method fail, keep method,
      alloc x, needOr x fail, keep x,
      alloc x, needOr x fail, keep x,
      one .uriClone,
      mayFailWith fail,
      call .viaClone [via], ifOk skip (block (fail ++ [ret false])),
      listAdd via,
      loop (choose brk (block [call .fromClone [route], ifOk skip (block (fail ++ [ret false])), listAdd route])),
      perhaps [
        perhaps [call (.listClone .authorization) [], ifOk skip (block (fail ++ [ret false]))],
        perhaps [call (.listClone .authorization) [], ifOk skip (block (fail ++ [ret false]))]],
      copy result ack,
      ret true] }

/-- ict_rcv_3456xx (ict_fsm.c:358-451); `ict->ack` is NULL before, since the state is left for good. `destination` is that of the context. -/
def ictRcv3456xx : Fn Fun :=
  let ict := 0; let sip := 1; let last_response := 2; let ack := 3; let destination := 4; let tmp := 5
  { vars := 6, params := 2, fields := [(destination, ict), (ack, ict)],
    body := block [
      use ict,
      null ack,
      field destination,
      field last_response,
      ifNull last_response skip (free last_response),
      null last_response,
      keep sip,
      perhaps [
        use sip,
        call .ictCreateAck [ack],
        ifNull ack (ret true) skip,
        ifNull destination
          (choose (setTo' ict destination tmp)
            (choose (setTo' ict destination tmp) (choose (setTo' ict destination tmp) (setTo' ict destination tmp))))
          skip,
        use ack,
        perhaps [ret true],
        use sip],
      ret true] }

/-- ict_retransmit_ack (ict_fsm.c:463-486) -/
def ictRetransmitAck : Fn Fun :=
  let sip := 0
  { vars := 1, params := 1, fields := [], body := block [use sip, free sip, ret true] }

/-- ist_rcv_invite (ist_fsm.c:104-141), nist_rcv_request (nist_fsm.c:98-152) -/
def serverRcvRequest : Fn Fun :=
  let sip := 0
  { vars := 1, params := 1, fields := [],
    body := block [
      choose (block [keep sip, use sip]) (block [free sip, ret true]),
      ret true] }

/-- ist_rcv_ack (ist_fsm.c:263-280) -/
def istRcvAck : Fn Fun :=
  let sip := 0; let ack := 1
  { vars := 2, params := 1, fields := [],
    body := block [
      field ack,
      ifNull ack skip (free ack),
      keep sip, use sip,
      ret true] }

/-- osip_transaction_execute (osip_transaction.c:333-377). The message `sip` of the event is NULL if the event is no message; then a handler
that takes no message runs (timeouts), or none. -/
def transactionExecute : Fn Fun :=
  let transaction := 0; let evt := 1; let sip := 2
  { vars := 3, params := 2, fields := [],
    body := block [
      use evt,
      perhaps [free evt, ret true],
      use transaction,
      field sip,
      ifNull sip skip
        (choose
          (choose (choose (call .takeRequest [sip]) (call .takeResponse [sip])) (choose (call .ictRcv3456xx [transaction, sip]) (free sip)))
          (choose (call .serverRcvRequest [sip]) (choose (call .istRcvAck [sip]) (call .ictRetransmitAck [sip])))),
      free evt,
      ret true] }

/-- osip_ict_execute (osip.c:1041-1095), osip_ist_execute (osip.c:1097-1152), osip_nict_execute (osip.c:1154-1208), osip_nist_execute
(osip.c:1210-1264); `transaction` is one of the list -/
def execute : Fn Fun :=
  let array := 0; let transaction := 1; let se := 2
  { vars := 3, params := 0, fields := [],
    body := block [
      perhaps [ret true],
      alloc array, need array,
      loop (choose brk (block [
        use array,
        field transaction, keep transaction, ifNull transaction brk skip,
        loop (block [field se, ifNull se brk (call .transactionExecute [transaction, se])])])),
      free array,
      ret true] }

/-- osip_timers_ict_execute (osip.c:1432-1469), osip_timers_ist_execute (osip.c:1471-1503), osip_timers_nict_execute (osip.c:1505-1537),
osip_timers_nist_execute (osip.c:1540-1562), with __osip_transaction_need_timer_x_event (osip_transaction.c:779-795): a timer runs out or not,
for each of the timers that the transaction has -/
def timersExecute : Fn Fun :=
  let evt := 0
  let timer (l : List P) := block [null evt, perhaps [call .eventNew [evt]], ifNull evt (block l) (call .fifoAdd [evt])]
  { vars := 1, params := 0, fields := [],
    body := block [
      loop (choose brk (perhaps [timer [perhaps [timer [timer []]]]])),
      ret true] }

/-! ## osip.c -/

/-- osip_init (osip.c:966-1009), without the hash tables -/
def osipInit : Fn Fun :=
  let osip := 0; let mutex := 1
  { vars := 2, params := 1, fields := [],
    body := block ([make osip, need osip, fill osip] ++ (List.replicate 6 [alloc mutex, keep mutex, null mutex]).flatten ++ [ret true]) }

/-- osip_release (osip.c:1011-1025); `mutex` is each of the mutexes, `ixt` an element of the list of retransmissions, if there is one -/
def osipRelease (pending : Bool) : Fn Fun :=
  let osip := 0; let mutex := 1; let ixt := 2
  { vars := 3, params := 1, fields := [(ixt, osip)],
    body := block ([use osip, if pending then field ixt else null ixt] ++ (List.replicate 6 [field mutex, free mutex, null mutex]).flatten ++ [free osip, ret true]) }

/-- ixt_init (osip.c:132-151) -/
def ixtInit : Fn Fun :=
  let ixt := 0
  { vars := 1, params := 1, fields := [], body := block [make ixt, need ixt, ret true] }

/-- ixt_free (osip.c:153-160) -/
def ixtFree : Fn Fun :=
  let ixt := 0; let ack := 1; let msg2xx := 2; let dest := 3
  { vars := 4, params := 1, fields := [],
    body := block [
      use ixt,
      field ack, free ack, null ack,
      field msg2xx, free msg2xx, null msg2xx,
      field dest, free dest, null dest,
      free ixt,
      ret true] }

/-- osip_add_ixt (osip.c:123-130) -/
def addIxt : Fn Fun :=
  let ixt := 0
  { vars := 1, params := 1, fields := [], body := block [listAdd ixt, ret true] }

/-- osip_start_200ok_retransmissions (osip.c:163-177) with osip_response_get_destination (osip.c:32-77) -/
def start200ok : Fn Fun :=
  let ixt := 0; let msg2xx := 1; let dest := 2
  { vars := 3, params := 0, fields := [],
    body := block [
      call .ixtInit [ixt], ifOk skip (ret true),
      fill ixt,
      call .messageClone [msg2xx], keep msg2xx,
      choose (block [alloc dest, keep dest]) (null dest),
      call .addIxt [ixt],
      ret true] }

/-- osip_start_ack_retransmissions (osip.c:179-194) -/
def startAck : Fn Fun :=
  let ixt := 0; let ack := 1; let dest := 2
  { vars := 3, params := 0, fields := [],
    body := block [
      call .ixtInit [ixt], ifOk skip (ret true),
      fill ixt,
      call .messageClone [ack], keep ack,
      alloc dest, keep dest,
      call .addIxt [ixt],
      ret true] }

/-- osip_stop_200ok_retransmissions (osip.c:197-221), osip_stop_retransmissions_from_dialog (osip.c:225-241), osip_retransmissions_execute
(osip.c:259-280): elements of the list are looked at, some of them are removed and given back -/
def stopIxt : Fn Fun :=
  let ixt := 0
  { vars := 1, params := 0, fields := [],
    body := block [
      loop (block [
        field ixt, ifNull ixt brk skip,
        use ixt,
        perhaps [call .matchAsUas []],
        choose (block [call .ixtFree [ixt], perhaps [brk]]) (keep ixt)]),
      ret true] }

/-- The functions. -/
def code : Fun → Fn Fun
  | .structInit => structInit
  | .bodyInit => bodyInit
  | .listClone e => listClone e
  | .paramClone => paramClone
  | .uriClone => uriClone
  | .fromClone => fromClone
  | .viaClone => viaClone
  | .callIdClone => callIdClone
  | .cseqClone => cseqClone
  | .headerClone => headerClone
  | .contentTypeClone => contentTypeClone
  | .contentLengthClone => contentLengthClone
  | .callInfoClone => callInfoClone
  | .acceptEncodingClone => acceptEncodingClone
  | .wwwClone => wwwClone
  | .authorizationClone => authorizationClone
  | .authInfoClone => authInfoClone
  | .bodyClone => bodyClone
  | .messageClone => messageClone
  | .callIdToStr => callIdToStr
  | .updateRouteSetAsUas => updateRouteSetAsUas
  | .updateRouteSetAsUac => updateRouteSetAsUac
  | .updateTagAsUac => updateTagAsUac
  | .matchAsUac => matchAsUac
  | .matchAsUas => matchAsUas
  | .dialogInit => dialogInit
  | .dialogInitAsUac => dialogInitAsUac
  | .dialogInitAsUas => dialogInitAsUas
  | .dialogFree => dialogFree
  | .setDestination => setDestination
  | .ictInit via => ictInit via
  | .nictInit => nictInit
  | .istInit => istInit
  | .nistInit => nistInit
  | .setTopvia => setTopvia
  | .setFrom => setFrom
  | .setTo => setTo
  | .setCallId => setCallId
  | .setCseq => setCseq
  | .fifoInit => fifoInit
  | .fifoAdd => fifoAdd
  | .transactionInit => transactionInit
  | .createTransaction => createTransaction
  | .transactionFree2 => transactionFree2
  | .eventNew => eventNew
  | .newOutgoing => newOutgoing
  | .eventFree => eventFree
  | .findAndAddEvent => findAndAddEvent
  | .takeRequest => takeRequest
  | .takeResponse => takeResponse
  | .ictCreateAck => ictCreateAck
  | .ictRcv3456xx => ictRcv3456xx
  | .ictRetransmitAck => ictRetransmitAck
  | .serverRcvRequest => serverRcvRequest
  | .istRcvAck => istRcvAck
  | .transactionExecute => transactionExecute
  | .execute => execute
  | .timersExecute => timersExecute
  | .osipInit => osipInit
  | .osipRelease pending => osipRelease pending
  | .ixtInit => ixtInit
  | .ixtFree => ixtFree
  | .addIxt => addIxt
  | .start200ok => start200ok
  | .startAck => startAck
  | .stopIxt => stopIxt

end Osip.Own.Stack
