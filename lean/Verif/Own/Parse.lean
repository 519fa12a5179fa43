import Verif.Own.Lang

/-!
# What the parsing and writing functions of src/osipparser2 do with memory

Every function below is what remains of the C function that it cites when all but the memory operations are left out, in the order of the C code:
* a condition on the text is `choose`; two errors in a row that do the same are one `mayFail`;
* loops that only move pointers inside of the text are left out, and so are tests of a text argument against NULL that end in an error;
* the fields of an empty structure that is filled are variables, NULL at first (`opened`);
* `member x` reads a pointer that an existing structure holds;
* a text that is only read (`hvalue`, `buf`, ...) is no argument, and a list is part of the structure it belongs to.

The `_init` functions are `structInit`, the `_free` functions are `free` (see Verif/Own/Lang.lean).
-/

set_option autoImplicit false

namespace Osip.Own

/-- The functions. -/
inductive Fun
  | structInit | paramSet | paramAdd
  | uriParse | uriParseHeaders | uriParseParams | uriEscape | uriToStr
  | paramParseall | fromParse | fromToStr
  | viaParse | viaToStr
  | contactParse | contactToStr | recordRouteToStr
  | callIdParse | callIdToStr
  | callInfoParse | callInfoToStr
  | contentTypeParse | contentTypeToStr
  | contentLengthParse | contentLengthToStr
  | cseqParse | cseqToStr
  | acceptToStr | acceptEncodingParse | acceptEncodingToStr
  | quotedSet | tokenSet | wwwParse | authorizationParse | authInfoParse | authToStr
  | headerToStr
  | setVia | appendVia | setRoute | setContact | setCallInfo | setAccept | setAcceptEncoding | setAllow | setWww | setAuthorization | setAuthInfo
  | setFrom | setCallId | setCseq | setContentType | setContentLength
  | setHeader | replaceHeader
  | bodyInit | bodySetContentType | bodySetHeader | bodyParseHeader | bodyParse | bodyParseMime | setBody | setBodyMime | bodyToStr
  | startRequest | startResponse | startLine
  | callMethod | setAnyHeader | setMultiple | headersParse | bodiesParse | messageParse | osipParse
  | startRequestToStr | startResponseToStr | startLineToStr
  | strcatSimple | strcatLines | messageRealloc | messageToStr
  deriving DecidableEq, Repr

abbrev P := Stmt Fun

open Stmt

/-- Statements one after the other. -/
def block : List P → P
  | [] => .skip
  | s :: l => l.foldl .seq s

/-- One of some statements, by the text. -/
def oneOf : List P → P
  | [] => .skip
  | [s] => s
  | s :: l => .choose s (oneOf l)

/-- The text may be wrong here. -/
def mayFail : P := .choose (.ret false) .skip

/-- The text may be wrong here; before the return some blocks are given back. -/
def mayFailWith (l : List P) : P := .choose (block (l ++ [.ret false])) .skip

/-- `if (x == NULL) return ...;` -/
def need (x : Nat) : P := .ifNull x (.ret false) .skip

/-- `if (x == NULL) { ...; return ...; }` -/
def needOr (x : Nat) (l : List P) : P := .ifNull x (block (l ++ [.ret false])) .skip

/-- `if (i != 0) { ...; return i; }` -/
def checkI (l : List P) : P := .ifOk .skip (block (l ++ [.retI]))

/-- The empty structure `x` is going to be filled. -/
def opened (x : Nat) (fields : List Nat) : P := block (.fill x :: fields.map .null)

/-- `x` is a pointer that an existing structure holds, or NULL. -/
def member (x : Nat) : P := block [.field x, .keep x]

/-- `if (...) { ... }` on the text -/
def perhaps (l : List P) : P := .choose (block l) .skip

/-! ## Structures -/

/-- osip_uri_init (osip_uri.c:33-51), osip_uri_param_init (osip_uri.c:782-791), osip_from_init (osip_from.c:66-78), osip_via_init
(osip_via.c:96-108), osip_call_id_init (osip_call_id.c:63-72), osip_call_info_init (osip_call_info.c:62-74), osip_content_type_init
(osip_content_type.c:28-41), osip_content_length_init (osip_content_length.c:26-34), osip_cseq_init (osip_cseq.c:26-35),
osip_accept_encoding_init (osip_accept_encoding.c:67-78), osip_www_authenticate_init (osip_www_authenticate.c:27-35),
osip_authorization_init (osip_authorization.c:27-35), osip_authentication_info_init (osip_authentication_info.c:29-38), osip_header_init
(osip_header.c:201-210), osip_message_init (osip_message.c:30-84) -/
def structInit : Fn Fun :=
  let x := 0
  { vars := 1, params := 1, fields := [], body := block [make x, need x, ret true] }

/-- osip_uri_param_set (osip_uri.c:801-811) -/
def paramSet : Fn Fun :=
  let param := 0; let pname := 1; let pvalue := 2
  { vars := 3, params := 3, fields := [], body := block [fill param, keep pname, keep pvalue, ret true] }

/-- osip_uri_param_add (osip_uri.c:813-829), also known as osip_generic_param_add (osip_message.h:425), osip_uri_uparam_add (osip_uri.h:381) and
osip_uri_uheader_add (osip_uri.h:396, 148). The result of osip_list_add is not looked at. -/
def paramAdd : Fn Fun :=
  let pname := 0; let pvalue := 1; let param := 2
  { vars := 3, params := 2, fields := [], body := block [
      call .structInit [param], checkI [],
      call .paramSet [param, pname, pvalue], checkI [free param],
      listAdd param,
      ret true] }

/-! ## osip_uri.c -/

/-- osip_uri_parse (osip_uri.c:101-268). The results of osip_uri_parse_headers and osip_uri_parse_params are not looked at. -/
def uriParse : Fn Fun :=
  let url := 0; let scheme := 1; let username := 2; let password := 3; let host := 4; let port := 5; let string := 6; let tmpbuf := 7
  { vars := 8, params := 1,
    fields := [(scheme, url), (username, url), (password, url), (host, url), (port, url), (string, url)],
    body := block [
      opened url [scheme, username, password, host, port, string],
      mayFail,
      alloc scheme, need scheme,
      mayFail,
      perhaps [mayFail, alloc string, need string, ret true],
      mayFail,
      perhaps [perhaps [mayFail, alloc password, need password], mayFail, alloc username, need username],
      perhaps [call .uriParseHeaders [url]],
      perhaps [mayFail, alloc tmpbuf, need tmpbuf, call .uriParseParams [url], free tmpbuf],
      perhaps [mayFail, alloc port, need port],
      mayFail,
      alloc host, need host,
      ret true] }

/-- osip_uri_parse_headers (osip_uri.c:351-424) -/
def uriParseHeaders : Fn Fun :=
  let url := 0; let hname := 1; let hvalue := 2
  { vars := 3, params := 1, fields := [],
    body := block [
      use url,
      mayFail,
      loop (block [
        alloc hname, need hname,
        choose
          (block [mayFailWith [free hname], alloc hvalue, needOr hvalue [free hname]])
          (block [mayFailWith [free hname], alloc hvalue, needOr hvalue [free hname]]),
        call .paramAdd [hname, hvalue], checkI [free hname, free hvalue],
        choose brk mayFail]),
      ret true] }

/-- osip_uri_parse_params (osip_uri.c:426-518) -/
def uriParseParams : Fn Fun :=
  let url := 0; let pname := 1; let pvalue := 2
  let one := block [
    choose (null pvalue) (block [mayFail, alloc pvalue, need pvalue]),
    mayFailWith [free pvalue],
    alloc pname, needOr pname [free pvalue],
    call .paramAdd [pname, pvalue],
    ifOk skip (block [free pname, free pvalue, ret false])]
  { vars := 3, params := 1, fields := [],
    body := block [
      use url,
      loop (choose brk one),
      one,
      ret true] }

/-- __osip_uri_escape_nonascii_and_nondef (osip_uri.c:910-964); `ns` is what it returns. -/
def uriEscape : Fn Fun :=
  let ns := 0; let previous_ns := 1
  { vars := 2, params := 1, fields := [],
    body := block [
      alloc ns, need ns,
      loop (choose brk (perhaps [copy previous_ns ns, realloc ns previous_ns, needOr ns [free previous_ns]])),
      use ns,
      ret true] }

/-- osip_uri_to_str (osip_uri.c:520-709) -/
def uriToStr : Fn Fun :=
  let url := 0; let dest := 1; let buf := 2; let tmp1 := 3; let tmp2 := 4; let previous_buf := 5
  { vars := 6, params := 2, fields := [],
    body := block [
      null dest,
      need url,
      mayFail,
      perhaps [alloc buf, need buf, copy dest buf, ret true],
      alloc buf, need buf,
      perhaps [call .uriEscape [tmp2], needOr tmp2 [free buf], use tmp2, free tmp2],
      perhaps [call .uriEscape [tmp2], needOr tmp2 [free buf], use tmp2, free tmp2],
      loop (choose brk (block [
        null tmp2,
        choose cont skip,
        call .uriEscape [tmp1], needOr tmp1 [free buf],
        perhaps [call .uriEscape [tmp2], needOr tmp2 [free tmp1, free buf]],
        copy previous_buf buf, realloc buf previous_buf, needOr buf [free previous_buf, free tmp1, free tmp2],
        use buf,
        ifNull tmp2 skip (block [use tmp2, free tmp2]),
        free tmp1])),
      loop (choose brk (block [
        call .uriEscape [tmp1], needOr tmp1 [free buf],
        call .uriEscape [tmp2], needOr tmp2 [free tmp1, free buf],
        copy previous_buf buf, realloc buf previous_buf, needOr buf [free previous_buf, free tmp1, free tmp2],
        use buf,
        free tmp1,
        free tmp2])),
      copy dest buf,
      ret true] }

/-! ## osip_from.c, osip_to.c, osip_contact.c, osip_route.c, osip_record_route.c -/

/-- __osip_generic_param_parseall (osip_from.c:505-650) -/
def paramParseall : Fn Fun :=
  let self := 0; let pname := 1; let pvalue := 2
  let value := choose (null pvalue) (block [null pvalue, perhaps [mayFail, alloc pvalue, need pvalue]])
  let rest := block [
    mayFailWith [free pvalue],
    alloc pname, needOr pname [free pvalue],
    call .paramAdd [pname, pvalue],
    ifOk skip (block [free pname, free pvalue, ret false])]
  { vars := 3, params := 1, fields := [],
    body := block [
      use self,
      loop (choose brk (block [value, rest])),
      choose
        (block [null pvalue, perhaps [free pvalue, ret true]])
        (block [null pvalue, perhaps [mayFail, alloc pvalue, need pvalue]]),
      rest,
      ret true] }

/-- osip_from_parse (osip_from.c:101-288); osip_to_parse (osip_to.c:73-77), osip_route_parse (osip_route.c:83-87) and osip_record_route_parse
(osip_record_route.c:79-83) call it -/
def fromParse : Fn Fun :=
  let self := 0; let displayname := 1; let url := 2; let tmp := 3
  { vars := 4, params := 1, fields := [(displayname, self), (url, self)],
    body := block [
      null displayname, null url,
      need self,
      fill self,
      perhaps [ret true],
      choose
        (block [mayFail, perhaps [alloc displayname, need displayname], mayFail])
        (block [mayFail, perhaps [mayFail, perhaps [alloc displayname, need displayname]]]),
      mayFail,
      perhaps [call .paramParseall [self], checkI []],
      mayFail,
      call .structInit [url], checkI [],
      alloc tmp, need tmp,
      call .uriParse [url],
      free tmp,
      checkI [],
      ret true] }

/-- osip_from_to_str (osip_from.c:294-353); osip_to_to_str (osip_to.c:82-86) calls it. The result of osip_realloc is not looked at. -/
def fromToStr : Fn Fun :=
  let self := 0; let dest := 1; let uri := 2; let url := 3; let buf := 4
  { vars := 5, params := 2, fields := [],
    body := block [
      null dest,
      need self,
      member uri, need uri,
      call .uriToStr [uri, url], checkI [],
      alloc buf, needOr buf [free url],
      use url,
      free url,
      loop (choose brk (block [realloc buf buf, use buf])),
      copy dest buf,
      ret true] }

/-- osip_record_route_to_str (osip_record_route.c:88-145); osip_route_to_str (osip_route.c:92-98) calls it -/
def recordRouteToStr : Fn Fun :=
  let self := 0; let dest := 1; let uri := 2; let url := 3; let buf := 4
  { vars := 5, params := 2, fields := [],
    body := block [
      null dest,
      need self,
      member uri, need uri,
      call .uriToStr [uri, url], checkI [],
      alloc buf, needOr buf [free url],
      use url,
      free url,
      loop (choose brk (block [realloc buf buf, use buf])),
      copy dest buf,
      ret true] }

/-- osip_contact_parse (osip_contact.c:56-69) -/
def contactParse : Fn Fun :=
  let self := 0; let displayname := 1
  { vars := 2, params := 1, fields := [(displayname, self)],
    body := block [
      null displayname,
      need self,
      perhaps [fill self, alloc displayname, need displayname, ret true],
      call .fromParse [self],
      retI] }

/-- osip_contact_to_str (osip_contact.c:101-115). `*dest` is not set if there is no contact. -/
def contactToStr : Fn Fun :=
  let self := 0; let dest := 1
  { vars := 2, params := 2, fields := [],
    body := block [
      need self,
      perhaps [alloc dest, need dest, ret true],
      call .fromToStr [self, dest],
      retI] }

/-! ## osip_via.c -/

/-- osip_via_parse (osip_via.c:125-272). The address in brackets (lines 228-241) and what follows it (247-262) is one way, because `ipv6host` is
not NULL at line 261 exactly if the first way was taken at line 228. -/
def viaParse : Fn Fun :=
  let via := 0; let version := 1; let protocol := 2; let comment := 3; let host := 4; let port := 5; let tmp := 6
  { vars := 7, params := 1,
    fields := [(version, via), (protocol, via), (comment, via), (host, via), (port, via)],
    body := block [
      opened via [version, protocol, comment, host, port],
      mayFail,
      alloc version, need version,
      mayFail,
      alloc protocol, need protocol,
      perhaps [mayFail, alloc comment, need comment],
      perhaps [
        mayFail,
        alloc tmp, need tmp,
        call .paramParseall [via], checkI [free tmp],
        free tmp],
      perhaps [
        mayFail,
        alloc host, need host,
        perhaps [mayFail, alloc port, need port, mayFail],
        ret true],
      perhaps [mayFail, alloc port, need port, mayFail],
      mayFail,
      alloc host, need host,
      ret true] }

/-- osip_via_to_str (osip_via.c:278-344). The results of osip_realloc are not looked at. -/
def viaToStr : Fn Fun :=
  let self := 0; let dest := 1; let buf := 2
  { vars := 3, params := 2, fields := [],
    body := block [
      null dest,
      need self,
      mayFail,
      alloc buf, need buf,
      loop (choose brk (block [realloc buf buf, use buf])),
      perhaps [realloc buf buf, use buf],
      copy dest buf,
      ret true] }

/-! ## osip_call_id.c, osip_call_info.c, osip_content_type.c, osip_content_length.c, osip_cseq.c, osip_accept.c, osip_accept_encoding.c -/

/-- osip_call_id_parse (osip_call_id.c:95-125) -/
def callIdParse : Fn Fun :=
  let self := 0; let number := 1; let host := 2
  { vars := 3, params := 1, fields := [(number, self), (host, self)],
    body := block [
      opened self [number, host],
      perhaps [mayFail, alloc host, need host],
      mayFail,
      alloc number, need number,
      ret true] }

/-- osip_call_id_to_str (osip_call_id.c:130-150) -/
def callIdToStr : Fn Fun :=
  let self := 0; let dest := 1
  { vars := 2, params := 2, fields := [],
    body := block [
      null dest,
      need self,
      mayFail,
      choose (block [alloc dest, need dest, use dest]) (block [alloc dest, need dest, use dest]),
      ret true] }

/-- osip_call_info_parse (osip_call_info.c:76-108) -/
def callInfoParse : Fn Fun :=
  let self := 0; let element := 1
  { vars := 2, params := 1, fields := [(element, self)],
    body := block [
      opened self [element],
      mayFail,
      perhaps [call .paramParseall [self], checkI []],
      mayFail,
      alloc element, need element,
      ret true] }

/-- osip_call_info_to_str (osip_call_info.c:113-154). The result of osip_realloc is not looked at. Between lines 129 and 152 both `*dest` and
`buf` hold the pointer, it is `buf` here. -/
def callInfoToStr : Fn Fun :=
  let self := 0; let dest := 1; let buf := 2
  { vars := 3, params := 2, fields := [],
    body := block [
      null dest,
      need self,
      mayFail,
      alloc buf, need buf,
      loop (choose brk (block [realloc buf buf, use buf])),
      copy dest buf,
      ret true] }

/-- osip_content_type_parse (osip_content_type.c:86-136), also known as osip_accept_parse (osip_accept.h:64) -/
def contentTypeParse : Fn Fun :=
  let self := 0; let type := 1; let subtype := 2
  { vars := 3, params := 1, fields := [(type, self), (subtype, self)],
    body := block [
      opened self [type, subtype],
      perhaps [ret true],
      mayFail,
      perhaps [call .paramParseall [self], checkI []],
      mayFail,
      alloc type, need type,
      mayFail,
      alloc subtype, need subtype,
      ret true] }

/-- osip_content_type_to_str (osip_content_type.c:142-189). The result of osip_realloc is not looked at. -/
def contentTypeToStr : Fn Fun :=
  let self := 0; let dest := 1; let buf := 2
  { vars := 3, params := 2, fields := [],
    body := block [
      null dest,
      need self,
      mayFail,
      alloc buf, need buf,
      loop (choose brk (block [mayFailWith [free buf], perhaps [realloc buf buf, use buf], use buf])),
      copy dest buf,
      ret true] }

/-- osip_content_length_parse (osip_content_length.c:64-79), also known as osip_allow_parse (osip_allow.h:58), osip_content_encoding_parse
(osip_content_encoding.h:59) and osip_mime_version_parse (osip_mime_version.h:59) -/
def contentLengthParse : Fn Fun :=
  let self := 0; let value := 1
  { vars := 2, params := 1, fields := [(value, self)],
    body := block [
      opened self [value],
      mayFail,
      alloc value, need value,
      ret true] }

/-- osip_content_length_to_str (osip_content_length.c:95-104). `*dest` is not set if there is no header. -/
def contentLengthToStr : Fn Fun :=
  let self := 0; let dest := 1
  { vars := 2, params := 2, fields := [],
    body := block [need self, alloc dest, need dest, ret true] }

/-- osip_cseq_parse (osip_cseq.c:68-101) -/
def cseqParse : Fn Fun :=
  let self := 0; let number := 1; let method := 2
  { vars := 3, params := 1, fields := [(number, self), (method, self)],
    body := block [
      null number, null method,
      need self,
      fill self,
      mayFail,
      alloc number, need number,
      mayFail,
      alloc method, need method,
      ret true] }

/-- osip_cseq_to_str (osip_cseq.c:141-155) -/
def cseqToStr : Fn Fun :=
  let self := 0; let dest := 1
  { vars := 2, params := 2, fields := [],
    body := block [null dest, need self, mayFail, alloc dest, need dest, use dest, ret true] }

/-- osip_accept_to_str (osip_accept.c:69-132). The result of osip_realloc is not looked at. -/
def acceptToStr : Fn Fun :=
  let self := 0; let dest := 1; let buf := 2
  { vars := 3, params := 2, fields := [],
    body := block [
      null dest,
      need self,
      perhaps [alloc buf, need buf, use buf, copy dest buf, ret true],
      alloc buf, need buf,
      loop (choose brk (block [mayFailWith [free buf], perhaps [realloc buf buf, use buf], use buf])),
      copy dest buf,
      ret true] }

/-- osip_accept_encoding_parse (osip_accept_encoding.c:80-104), also known as osip_accept_language_parse (osip_accept_language.h:58) -/
def acceptEncodingParse : Fn Fun :=
  let self := 0; let element := 1
  { vars := 2, params := 1, fields := [(element, self)],
    body := block [
      opened self [element],
      perhaps [call .paramParseall [self], checkI []],
      mayFail,
      alloc element, need element,
      ret true] }

/-- osip_accept_encoding_to_str (osip_accept_encoding.c:109-148). The result of osip_realloc is not looked at. -/
def acceptEncodingToStr : Fn Fun :=
  let self := 0; let dest := 1; let buf := 2
  { vars := 3, params := 2, fields := [],
    body := block [
      null dest,
      need self,
      mayFail,
      alloc buf, need buf,
      loop (choose brk (block [realloc buf buf, use buf])),
      copy dest buf,
      ret true] }

/-! ## osip_www_authenticate.c, osip_authorization.c, osip_authentication_info.c -/

/-- __osip_quoted_string_set (osip_www_authenticate.c:65-152) -/
def quotedSet : Fn Fun :=
  let result := 0
  { vars := 1, params := 1, fields := [],
    body := block [
      ifNull result skip (ret true),
      mayFail,
      perhaps [
        mayFail,
        perhaps [ret true],
        mayFail,
        perhaps [ret true],
        alloc result, need result,
        use result,
        perhaps [ret true]],
      ret true] }

/-- __osip_token_set (osip_www_authenticate.c:154-215) -/
def tokenSet : Fn Fun :=
  let result := 0
  { vars := 1, params := 1, fields := [],
    body := block [
      ifNull result skip (ret true),
      mayFail,
      perhaps [ret true],
      mayFail,
      perhaps [
        mayFail,
        alloc result, need result,
        use result,
        perhaps [ret true]],
      ret true] }

/-- One parameter of a challenge: `i = __osip_quoted_string_set (..., &(self->f), &next); if (i != 0) return i; if (next == NULL) return OSIP_SUCCESS;` -/
def authStep (set : Fun) (f : Nat) : P := block [field f, call set [f], keep f, checkI [], perhaps [ret true]]

/-- What is done when no parameter was recognised (osip_www_authenticate.c:339-365, osip_authorization.c:243-269, osip_authentication_info.c:188-214) -/
def authOther : P := perhaps [perhaps [ret true], mayFail, perhaps [ret true]]

/-- osip_www_authenticate_parse (osip_www_authenticate.c:225-368), also known as osip_proxy_authenticate_parse (osip_proxy_authenticate.h:58).
The parameters are realm, domain, nonce, opaque, stale, algorithm, qop, version, targetname, gssapi-data. -/
def wwwParse : Fn Fun :=
  let self := 0; let auth_type := 1; let f := 2
  { vars := 3, params := 1, fields := [(auth_type, self)],
    body := block [
      opened self [auth_type],
      mayFail,
      alloc auth_type, need auth_type,
      loop (block [
        authStep .quotedSet f, authStep .quotedSet f, authStep .quotedSet f, authStep .quotedSet f, authStep .tokenSet f,
        authStep .tokenSet f, authStep .quotedSet f, authStep .tokenSet f, authStep .quotedSet f, authStep .quotedSet f,
        authOther])] }

/-- osip_authorization_parse (osip_authorization.c:73-272), also known as osip_proxy_authorization_parse (osip_proxy_authorization.h:59).
The parameters are username, realm, nonce, uri, response, digest, algorithm, cnonce, opaque, qop, nc, version, targetname, gssapi-data, crand, cnum. -/
def authorizationParse : Fn Fun :=
  let self := 0; let auth_type := 1; let f := 2
  { vars := 3, params := 1, fields := [(auth_type, self)],
    body := block [
      opened self [auth_type],
      mayFail,
      alloc auth_type, need auth_type,
      loop (block [
        authStep .quotedSet f, authStep .quotedSet f, authStep .quotedSet f, authStep .quotedSet f, authStep .quotedSet f,
        authStep .quotedSet f, authStep .tokenSet f, authStep .quotedSet f, authStep .quotedSet f, authStep .tokenSet f,
        authStep .tokenSet f, authStep .tokenSet f, authStep .quotedSet f, authStep .quotedSet f, authStep .quotedSet f,
        authStep .quotedSet f,
        authOther])] }

/-- osip_authentication_info_parse (osip_authentication_info.c:77-217), also known as osip_proxy_authentication_info_parse
(osip_proxy_authentication_info.h:58). The parameters are nextnonce, cnonce, rspauth, nc, qop, snum, srand, targetname, realm, opaque. -/
def authInfoParse : Fn Fun :=
  let self := 0; let auth_type := 1; let f := 2
  { vars := 3, params := 1, fields := [(auth_type, self)],
    body := block [
      opened self [auth_type],
      perhaps [alloc auth_type, need auth_type],
      loop (block [
        authStep .quotedSet f, authStep .quotedSet f, authStep .quotedSet f, authStep .tokenSet f, authStep .tokenSet f,
        authStep .quotedSet f, authStep .quotedSet f, authStep .quotedSet f, authStep .quotedSet f, authStep .quotedSet f,
        authOther])] }

/-- osip_www_authenticate_to_str (osip_www_authenticate.c:530-619), osip_authorization_to_str (osip_authorization.c:505-690),
osip_authentication_info_to_str (osip_authentication_info.c:383-505) -/
def authToStr : Fn Fun :=
  let self := 0; let dest := 1; let tmp := 2
  { vars := 3, params := 2, fields := [],
    body := block [null dest, need self, mayFail, alloc tmp, need tmp, copy dest tmp, use dest, ret true] }

/-! ## osip_header.c -/

/-- osip_header_to_str (osip_header.c:228-254) -/
def headerToStr : Fn Fun :=
  let self := 0; let dest := 1
  { vars := 2, params := 2, fields := [],
    body := block [null dest, need self, mayFail, alloc dest, need dest, use dest, ret true] }

/-! ## The functions that put a header into a message -/

/-- A header of which there may be many. The result of osip_list_add is not looked at. -/
def setList (parse : Fun) : Fn Fun :=
  let sip := 0; let elt := 1
  { vars := 2, params := 1, fields := [],
    body := block [
      perhaps [ret true],
      call .structInit [elt], checkI [],
      call parse [elt], checkI [free elt],
      use sip,
      listAdd elt,
      ret true] }

/-- A header of which there may be one. -/
def setOne (parse : Fun) : Fn Fun :=
  let sip := 0; let elt := 1
  { vars := 2, params := 1, fields := [(elt, sip)],
    body := block [
      use sip,
      field elt,
      perhaps [ret true],
      ifNull elt skip (ret false),
      call .structInit [elt], checkI [],
      call parse [elt], checkI [free elt, null elt],
      ret true] }

/-- osip_message_append_via (osip_via.c:57-74) -/
def appendVia : Fn Fun :=
  let sip := 0; let elt := 1
  { vars := 2, params := 1, fields := [],
    body := block [
      call .structInit [elt], checkI [],
      call .viaParse [elt], checkI [free elt],
      use sip,
      listAdd elt,
      ret true] }

/-- osip_message_set_accept (osip_accept.c:32-50) -/
def setAccept : Fn Fun :=
  let sip := 0; let elt := 1
  { vars := 2, params := 1, fields := [],
    body := block [
      call .structInit [elt], checkI [],
      call .contentTypeParse [elt], checkI [free elt],
      use sip,
      listAdd elt,
      ret true] }

/-- osip_message_set_header (osip_header.c:32-66), osip_message_set_topheader (osip_header.c:124-158) -/
def setHeader : Fn Fun :=
  let sip := 0; let h := 1; let hname := 2; let hvalue := 3
  { vars := 4, params := 1, fields := [],
    body := block [
      need sip,
      mayFail,
      call .structInit [h], checkI [],
      opened h [hname, hvalue],
      alloc hname, needOr hname [free h],
      keep hname,
      choose (block [alloc hvalue, needOr hvalue [free h], keep hvalue]) (null hvalue),
      use sip,
      listAdd h,
      ret true] }

/-- osip_message_replace_header (osip_header.c:73-115). The header that is replaced is looked for at line 82 and taken out of the list at line
108; both is done at line 108 here. -/
def replaceHeader : Fn Fun :=
  let sip := 0; let h := 1; let hname := 2; let hvalue := 3; let oldh := 4
  { vars := 5, params := 1, fields := [],
    body := block [
      need sip,
      mayFail,
      call .structInit [h], checkI [],
      opened h [hname, hvalue],
      alloc hname, needOr hname [free h],
      keep hname,
      choose (block [alloc hvalue, needOr hvalue [free h], keep hvalue]) (null hvalue),
      field oldh,
      ifNull oldh skip (free oldh),
      use sip,
      listAdd h,
      ret true] }

/-! ## osip_body.c -/

/-- osip_body_init (osip_body.c:30-48) -/
def bodyInit : Fn Fun :=
  let body := 0; let headers := 1
  { vars := 2, params := 1, fields := [(headers, body)],
    body := block [
      null headers,
      make body, need body,
      alloc headers, needOr headers [free body, null body],
      ret true] }

/-- osip_body_set_contenttype (osip_body.c:136-156); `ct` is `body->content_type`. It is not tested if there is a content type already. -/
def bodySetContentType : Fn Fun :=
  let body := 0; let ct := 1
  { vars := 2, params := 2, fields := [],
    body := block [
      need body,
      mayFail,
      call .structInit [ct], checkI [],
      call .contentTypeParse [ct], checkI [free ct, null ct],
      ret true] }

/-- osip_body_set_header (osip_body.c:158-188) -/
def bodySetHeader : Fn Fun :=
  let body := 0; let h := 1; let hname := 2; let hvalue := 3
  { vars := 4, params := 1, fields := [],
    body := block [
      need body,
      mayFail,
      call .structInit [h], checkI [],
      opened h [hname, hvalue],
      alloc hname, needOr hname [free h],
      keep hname,
      alloc hvalue, needOr hvalue [free h],
      keep hvalue,
      use body,
      listAdd h,
      ret true] }

/-- osip_body_parse_header (osip_body.c:216-274); `ct` is `body->content_type`. `twice`: there may be a second content-type line. -/
def bodyParseHeader (twice : Bool) : Fn Fun :=
  let body := 0; let ct := 1; let hname := 2; let hvalue := 3
  let type := call .bodySetContentType [body, ct]
  let other := call .bodySetHeader [body]
  { vars := 4, params := 2, fields := [],
    body := loop (block [
      mayFail,
      alloc hname, need hname,
      mayFailWith [free hname],
      alloc hvalue, needOr hvalue [free hname],
      choose (if twice then type else ifNull ct type other) other,
      free hname,
      free hvalue,
      checkI [],
      perhaps [ret true]]) }

/-- osip_body_parse (osip_body.c:276-293) -/
def bodyParse : Fn Fun :=
  let self := 0; let body := 1
  { vars := 2, params := 1, fields := [(body, self)],
    body := block [
      null body,
      need self,
      fill self,
      mayFail,
      alloc body, need body,
      use body,
      ret true] }

/-- osip_body_parse_mime (osip_body.c:295-340) -/
def bodyParseMime : Fn Fun :=
  let self := 0; let body := 1; let ct := 2
  { vars := 3, params := 1, fields := [(body, self), (ct, self)],
    body := block [
      null body, null ct,
      need self,
      fill self,
      mayFail,
      call .bodyParseHeader [self, ct], checkI [],
      mayFail,
      alloc body, need body,
      use body,
      ret true] }

/-- osip_message_set_body (osip_body.c:56-73) -/
def setBody : Fn Fun :=
  let sip := 0; let body := 1
  { vars := 2, params := 1, fields := [],
    body := block [
      call .bodyInit [body], checkI [],
      call .bodyParse [body], checkI [free body],
      use sip,
      listAdd body,
      ret true] }

/-- osip_message_set_body_mime (osip_body.c:194-214) -/
def setBodyMime : Fn Fun :=
  let sip := 0; let body := 1
  { vars := 2, params := 1, fields := [],
    body := block [
      need sip,
      call .bodyInit [body], checkI [],
      call .bodyParseMime [body], checkI [free body],
      use sip,
      listAdd body,
      ret true] }

/-- osip_body_to_str (osip_body.c:345-446). The results of osip_realloc are not looked at. -/
def bodyToStr : Fn Fun :=
  let self := 0; let dest := 1; let ct := 2; let h := 3; let tmp := 4; let ptr := 5
  { vars := 6, params := 2, fields := [],
    body := block [
      null dest,
      need self,
      mayFail,
      alloc ptr, need ptr,
      member ct,
      ifNull ct skip (block [
        call .contentTypeToStr [ct, tmp], checkI [free ptr],
        perhaps [realloc ptr ptr, use ptr],
        use tmp,
        free tmp]),
      loop (block [
        member h,
        ifNull h brk skip,
        call .headerToStr [h, tmp], checkI [free ptr],
        perhaps [realloc ptr ptr, use ptr],
        use tmp,
        free tmp]),
      perhaps [realloc ptr ptr, use ptr],
      perhaps [realloc ptr ptr, use ptr],
      use ptr,
      copy dest ptr,
      ret true] }

/-! ## osip_message_parse.c -/

/-- __osip_message_startline_parsereq (osip_message_parse.c:32-177) -/
def startRequest : Fn Fun :=
  let sip := 0; let method := 1; let uri := 2; let version := 3; let requesturi := 4
  let noMethod := [free method, null method]
  let noUri := [free method, null method, free uri, null uri]
  { vars := 5, params := 1, fields := [(method, sip), (uri, sip), (version, sip)],
    body := block [
      opened sip [method, uri, version],
      mayFail,
      alloc method, need method,
      mayFailWith noMethod,
      mayFailWith noMethod,
      alloc requesturi, needOr requesturi noMethod,
      call .structInit [uri],
      ifOk skip (block [free requesturi, null requesturi, free method, null method, ret false]),
      call .uriParse [uri],
      free requesturi,
      ifOk skip (block [free method, null method, free uri, null uri, ret false]),
      mayFailWith noUri,
      mayFailWith noUri,
      mayFailWith noUri,
      mayFailWith noUri,
      mayFailWith noUri,
      alloc version, needOr version noUri,
      use version,
      ret true] }

/-- __osip_message_startline_parseresp (osip_message_parse.c:179-240) -/
def startResponse : Fn Fun :=
  let sip := 0; let version := 1; let reason := 2
  { vars := 3, params := 1, fields := [(version, sip), (reason, sip)],
    body := block [
      opened sip [version, reason],
      mayFail,
      alloc version, need version,
      use version,
      mayFailWith [free version, null version],
      mayFail,
      mayFail,
      mayFail,
      alloc reason, needOr reason [free version, null version],
      use reason,
      ret true] }

/-- __osip_message_startline_parse (osip_message_parse.c:242-250) -/
def startLine : Fn Fun :=
  let sip := 0
  { vars := 1, params := 1, fields := [],
    body := choose (block [call .startResponse [sip], retI]) (block [call .startRequest [sip], retI]) }

/-- __osip_message_call_method (osip_parser_cfg.c:227-239) with the table of parser_init (osip_parser_cfg.c:57-199) -/
def callMethod : Fn Fun :=
  let sip := 0
  { vars := 1, params := 1, fields := [],
    body := block [
      oneOf [call .setAccept [sip], call .setAcceptEncoding [sip], call .setCallInfo [sip], call .setAllow [sip], call .setAuthInfo [sip],
        call .setAuthorization [sip], call .setCallId [sip], call .setContact [sip], call .setContentLength [sip],
        call .setContentType [sip], call .setCseq [sip], call .setFrom [sip], call .setWww [sip], call .setRoute [sip], call .setVia [sip]],
      perhaps [ret true],
      retI] }

/-- osip_message_set__header (osip_message_parse.c:397-423) -/
def setAnyHeader : Fn Fun :=
  let sip := 0
  { vars := 1, params := 1, fields := [],
    body := block [
      mayFail,
      perhaps [call .callMethod [sip], checkI [], ret true],
      call .setHeader [sip],
      ret true] }

/-- osip_message_set_multiple_header (osip_message_parse.c:425-570) -/
def setMultiple : Fn Fun :=
  let sip := 0; let avalue := 1
  { vars := 2, params := 1, fields := [],
    body := block [
      perhaps [call .setAnyHeader [sip], checkI [], ret true],
      perhaps [call .setAnyHeader [sip], checkI [], ret true],
      loop (block [
        perhaps [
          perhaps [ret true],
          choose cont skip,
          alloc avalue, need avalue,
          call .setAnyHeader [sip],
          free avalue,
          checkI []],
        perhaps [ret true]])] }

/-- msg_headers_parse (osip_message_parse.c:573-664) -/
def headersParse : Fn Fun :=
  let sip := 0; let hname := 1; let hvalue := 2
  { vars := 3, params := 1, fields := [],
    body := loop (block [
      perhaps [ret true],
      mayFail,
      perhaps [ret true],
      mayFail,
      alloc hname, need hname,
      choose (null hvalue) (block [alloc hvalue, needOr hvalue [free hname]]),
      call .setMultiple [sip],
      free hname,
      ifNull hvalue skip (free hvalue),
      ifOk skip (ret false)]) }

/-- msg_osip_body_parse (osip_message_parse.c:666-820) -/
def bodiesParse : Fn Fun :=
  let sip := 0; let tmp := 1; let sep_boundary := 2
  { vars := 3, params := 1, fields := [],
    body := block [
      use sip,
      perhaps [ret true],
      perhaps [
        mayFail,
        perhaps [call .setContentLength [sip], checkI []],
        mayFail,
        alloc tmp, need tmp,
        call .setBody [sip],
        free tmp,
        checkI [],
        ret true],
      mayFail,
      alloc sep_boundary, need sep_boundary,
      loop (block [
        mayFailWith [free sep_boundary],
        mayFailWith [free sep_boundary],
        alloc tmp, needOr tmp [free sep_boundary],
        call .setBodyMime [sip],
        free tmp,
        checkI [free sep_boundary],
        perhaps [free sep_boundary, ret true]])] }

/-- _osip_message_parse (osip_message_parse.c:823-892) for osip_message_parse (894-898) and osip_message_parse_sipfrag (900-904); `cl` is
`sip->content_length` at lines 861-865 -/
def messageParse : Fn Fun :=
  let sip := 0; let beg := 1; let cl := 2
  { vars := 3, params := 1, fields := [(cl, sip)],
    body := block [
      null cl,
      alloc beg, need beg,
      call .startLine [sip],
      ifOk skip (perhaps [free beg, retI]),
      call .headersParse [sip], checkI [free beg],
      field cl,
      ifNull cl skip (choose (block [free cl, null cl]) (keep cl)),
      perhaps [perhaps [call .setContentLength [sip]], free beg, ret true],
      call .bodiesParse [sip],
      free beg,
      checkI [],
      perhaps [call .setContentLength [sip]],
      ret true] }

/-- osip_parse (src/osip2/osip_event.c:28-65) with __osip_event_new (73-85); `se` is what it returns -/
def osipParse : Fn Fun :=
  let se := 0; let sip := 1
  { vars := 2, params := 1, fields := [(sip, se)],
    body := block [
      null sip,
      make se, need se,
      fill se,
      call .structInit [sip], ifOk skip (block [free se, null se, ret false]),
      call .messageParse [sip],
      ifOk skip (block [free sip, free se, null se, ret false]),
      perhaps [free sip, free se, null se, ret false],
      ret true] }

/-! ## osip_message_to_str.c -/

/-- __osip_message_startline_to_strreq (osip_message_to_str.c:33-72) -/
def startRequestToStr : Fn Fun :=
  let sip := 0; let dest := 1; let uri := 2; let rquri := 3
  { vars := 4, params := 2, fields := [],
    body := block [
      null dest,
      need sip,
      member uri, need uri,
      mayFail,
      call .uriToStr [uri, rquri], checkI [],
      alloc dest, needOr dest [free rquri],
      use dest,
      use rquri,
      free rquri,
      ret true] }

/-- __osip_message_startline_to_strresp (osip_message_to_str.c:74-109) -/
def startResponseToStr : Fn Fun :=
  let sip := 0; let dest := 1
  { vars := 2, params := 2, fields := [],
    body := block [null dest, need sip, mayFail, alloc dest, need dest, use dest, ret true] }

/-- __osip_message_startline_to_str (osip_message_to_str.c:111-122). `*dest` is not set if the message is neither request nor response. -/
def startLineToStr : Fn Fun :=
  let sip := 0; let dest := 1
  { vars := 2, params := 2, fields := [],
    body := block [
      use sip,
      perhaps [call .startRequestToStr [sip, dest], retI],
      perhaps [call .startResponseToStr [sip, dest], retI],
      ret false] }

/-- `xxx_to_str (elt, &tmp)` for the functions of the table osip_message_to_str.c:404-435 -/
def anyToStr (elt tmp : Nat) : P :=
  oneOf [call .viaToStr [elt, tmp], call .recordRouteToStr [elt, tmp], call .fromToStr [elt, tmp], call .callIdToStr [elt, tmp],
    call .cseqToStr [elt, tmp], call .contactToStr [elt, tmp], call .authToStr [elt, tmp], call .callInfoToStr [elt, tmp],
    call .contentTypeToStr [elt, tmp], call .contentLengthToStr [elt, tmp], call .acceptToStr [elt, tmp], call .acceptEncodingToStr [elt, tmp]]

/-- strcat_simple_header (osip_message_to_str.c:154-214). `string` is equal to `*_string` wherever it is passed to osip_realloc. -/
def strcatSimple : Fn Fun :=
  let _string := 0; let elt := 1; let string := 2; let tmp := 3
  let grow := perhaps [realloc string _string, needOr string [free _string, null _string], copy _string string]
  { vars := 4, params := 2, fields := [],
    body := block [
      ifNull elt skip (block [
        grow,
        use _string,
        anyToStr elt tmp, checkI [],
        use tmp,
        grow,
        use _string,
        free tmp]),
      ret true] }

/-- strcat_headers_one_per_line (osip_message_to_str.c:216-280) -/
def strcatLines : Fn Fun :=
  let _string := 0; let elt := 1; let string := 2; let tmp := 3
  let grow := perhaps [realloc string _string, needOr string [free _string, null _string], copy _string string]
  { vars := 4, params := 1, fields := [],
    body := block [
      loop (block [
        member elt,
        ifNull elt brk skip,
        grow,
        use _string,
        anyToStr elt tmp, checkI [],
        use tmp,
        grow,
        use _string,
        free tmp]),
      ret true] }

/-- _osip_message_realloc (osip_message_to_str.c:304-318) -/
def messageRealloc : Fn Fun :=
  let dest := 0
  { vars := 1, params := 1, fields := [],
    body := block [perhaps [realloc dest dest, need dest], ret true] }

/-- _osip_message_to_str (osip_message_to_str.c:320-709) for osip_message_to_str (711-715) and osip_message_to_str_sipfrag (717-721); `msg` is
`sip->message`. The result of strcat_simple_header is not looked at. -/
def messageToStr : Fn Fun :=
  let sip := 0; let dest := 1; let msg := 2; let message := 3; let tmp := 4; let elt := 5; let boundary := 6
  let noDest := [free dest, null dest]
  { vars := 7, params := 2, fields := [(msg, sip)],
    body := block [
      null boundary,
      null msg,
      null dest,
      need sip,
      field msg,
      perhaps [keep msg, alloc dest, need dest, ret true],
      free msg,
      null msg,
      alloc message, need message,
      copy dest message,
      call .startLineToStr [sip, tmp],
      ifOk
        (block [
          call .messageRealloc [dest], ifOk skip (block [free tmp, null dest, ret false]),
          use dest,
          use tmp,
          free tmp])
        (perhaps [free dest, null dest, retI]),
      loop (choose brk (block [
        member elt,
        call .strcatSimple [dest, elt],
        call .strcatLines [dest], checkI [free dest, null dest]])),
      loop (block [
        member elt,
        ifNull elt brk skip,
        call .headerToStr [elt, tmp], checkI [free dest, null dest],
        call .messageRealloc [dest], ifOk skip (block [free tmp, null dest, ret false]),
        use dest,
        use tmp,
        free tmp]),
      call .messageRealloc [dest], ifOk skip (ret false),
      use dest,
      perhaps [alloc msg, ret true],
      perhaps [alloc msg, ret true],
      perhaps [perhaps [
        mayFailWith noDest,
        alloc boundary, needOr boundary noDest,
        use boundary]],
      loop (block [
        member elt,
        ifNull elt brk skip,
        ifNull boundary skip (use boundary),
        call .bodyToStr [elt, tmp], checkI [free dest, null dest, ifNull boundary skip (free boundary)],
        perhaps [realloc dest dest, needOr dest [free tmp, ifNull boundary skip (free boundary)]],
        use dest,
        use tmp,
        free tmp]),
      ifNull boundary skip (block [use boundary, free boundary, null boundary]),
      mayFailWith noDest,
      alloc msg,
      ret true] }

/-! ## All functions -/

/-- The functions. `twice`: there are texts where a part of a multipart body has two content-type lines. -/
def code (twice : Bool) : Fun → Fn Fun
  | .structInit => structInit
  | .paramSet => paramSet
  | .paramAdd => paramAdd
  | .uriParse => uriParse
  | .uriParseHeaders => uriParseHeaders
  | .uriParseParams => uriParseParams
  | .uriEscape => uriEscape
  | .uriToStr => uriToStr
  | .paramParseall => paramParseall
  | .fromParse => fromParse
  | .fromToStr => fromToStr
  | .viaParse => viaParse
  | .viaToStr => viaToStr
  | .contactParse => contactParse
  | .contactToStr => contactToStr
  | .recordRouteToStr => recordRouteToStr
  | .callIdParse => callIdParse
  | .callIdToStr => callIdToStr
  | .callInfoParse => callInfoParse
  | .callInfoToStr => callInfoToStr
  | .contentTypeParse => contentTypeParse
  | .contentTypeToStr => contentTypeToStr
  | .contentLengthParse => contentLengthParse
  | .contentLengthToStr => contentLengthToStr
  | .cseqParse => cseqParse
  | .cseqToStr => cseqToStr
  | .acceptToStr => acceptToStr
  | .acceptEncodingParse => acceptEncodingParse
  | .acceptEncodingToStr => acceptEncodingToStr
  | .quotedSet => quotedSet
  | .tokenSet => tokenSet
  | .wwwParse => wwwParse
  | .authorizationParse => authorizationParse
  | .authInfoParse => authInfoParse
  | .authToStr => authToStr
  | .headerToStr => headerToStr
  -- osip_message_set_via (osip_via.c:31-51)
  | .setVia => setList .viaParse
  | .appendVia => appendVia
  -- osip_message_set_route (osip_route.c:38-62), osip_message_set_record_route (osip_record_route.c:38-58)
  | .setRoute => setList .fromParse
  -- osip_message_set_contact (osip_contact.c:30-50)
  | .setContact => setList .contactParse
  -- osip_message_set_call_info (osip_call_info.c:27-47), _alert_info (osip_alert_info.c:29-49), _error_info (osip_error_info.c:29-49)
  | .setCallInfo => setList .callInfoParse
  | .setAccept => setAccept
  -- osip_message_set_accept_encoding (osip_accept_encoding.c:32-52), _accept_language (osip_accept_language.c:29-49)
  | .setAcceptEncoding => setList .acceptEncodingParse
  -- osip_message_set_allow (osip_allow.c:29-49), _content_encoding (osip_content_encoding.c:32-52)
  | .setAllow => setList .contentLengthParse
  -- osip_message_set_www_authenticate (osip_www_authenticate.c:41-63), _proxy_authenticate (osip_proxy_authenticate.c:30-50)
  | .setWww => setList .wwwParse
  -- osip_message_set_authorization (osip_authorization.c:41-63), _proxy_authorization (osip_proxy_authorization.c:32-52)
  | .setAuthorization => setList .authorizationParse
  -- osip_message_set_authentication_info (osip_authentication_info.c:44-67), _proxy_authentication_info (osip_proxy_authentication_info.c:33-54)
  | .setAuthInfo => setList .authInfoParse
  -- osip_message_set_from (osip_from.c:31-52), osip_message_set_to (osip_to.c:37-58)
  | .setFrom => setOne .fromParse
  -- osip_message_set_call_id (osip_call_id.c:30-51)
  | .setCallId => setOne .callIdParse
  -- osip_message_set_cseq (osip_cseq.c:41-62)
  | .setCseq => setOne .cseqParse
  -- osip_message_set_content_type (osip_content_type.c:47-69)
  | .setContentType => setOne .contentTypeParse
  -- osip_message_set_content_length (osip_content_length.c:40-62), osip_message_set_mime_version (osip_mime_version.c:31-52)
  | .setContentLength => setOne .contentLengthParse
  | .setHeader => setHeader
  | .replaceHeader => replaceHeader
  | .bodyInit => bodyInit
  | .bodySetContentType => bodySetContentType
  | .bodySetHeader => bodySetHeader
  | .bodyParseHeader => bodyParseHeader twice
  | .bodyParse => bodyParse
  | .bodyParseMime => bodyParseMime
  | .setBody => setBody
  | .setBodyMime => setBodyMime
  | .bodyToStr => bodyToStr
  | .startRequest => startRequest
  | .startResponse => startResponse
  | .startLine => startLine
  | .callMethod => callMethod
  | .setAnyHeader => setAnyHeader
  | .setMultiple => setMultiple
  | .headersParse => headersParse
  | .bodiesParse => bodiesParse
  | .messageParse => messageParse
  | .osipParse => osipParse
  | .startRequestToStr => startRequestToStr
  | .startResponseToStr => startResponseToStr
  | .startLineToStr => startLineToStr
  | .strcatSimple => strcatSimple
  | .strcatLines => strcatLines
  | .messageRealloc => messageRealloc
  | .messageToStr => messageToStr

end Osip.Own
