import Verif.Own.Parse

/-!
# How the functions of Verif/Own/Parse.lean are called, and which of them are wrong
-/

set_option autoImplicit false

namespace Osip.Own

/-- The functions that lose a block or use NULL. `m` tells which allocations may fail, `twice` if a part of a body may have two content-type
lines. -/
def unsafeFuns (m : Mode) (twice : Bool) : List Fun :=
  (if twice then [.bodyParseHeader, .bodyParseMime, .setBodyMime, .bodiesParse, .messageParse, .osipParse] else []) ++
  (if m = .none then [] else
    [.fromToStr, .viaToStr, .contactToStr, .recordRouteToStr, .callInfoToStr, .contentTypeToStr, .acceptToStr, .acceptEncodingToStr, .bodyToStr,
      .strcatSimple, .strcatLines, .messageRealloc, .messageToStr]) ++
  (if m = .any then
    [.paramAdd, .uriParseHeaders, .uriParseParams, .uriParse, .paramParseall, .fromParse, .viaParse, .contactParse, .callInfoParse,
      .contentTypeParse, .acceptEncodingParse, .setVia, .appendVia, .setRoute, .setContact, .setCallInfo, .setAccept, .setAcceptEncoding,
      .setAllow, .setWww, .setAuthorization, .setAuthInfo, .setFrom, .setContentType, .setHeader, .replaceHeader, .bodySetContentType,
      .bodySetHeader, .bodyParseHeader, .bodyParseMime, .setBody, .setBodyMime, .startRequest, .startLine, .callMethod, .setAnyHeader,
      .setMultiple, .headersParse, .bodiesParse, .messageParse, .osipParse] else [])

/-- What is written, and the address of a variable of the caller. -/
def written : List (List Arg) := [[.null, .none], [.block, .none], [.kept, .none]]

/-- A structure that was made by its `_init` function. -/
def parsed : List (List Arg) := [[.empty]]

/-- The same or NULL. -/
def parsedN : List (List Arg) := [[.null], [.empty]]

/-- A message, which the caller or an event owns. -/
def taken : List (List Arg) := [[.block], [.kept]]

/-- How the functions may be called. -/
def calls : Fun → List (List Arg)
  | .structInit => [[.none]]
  | .paramSet => [[.empty, .block, .block], [.empty, .block, .null]]
  | .paramAdd => [[.block, .block], [.block, .null]]
  | .uriParse => parsed
  | .uriParseHeaders => [[.block]]
  | .uriParseParams => [[.block]]
  | .uriEscape => [[.none]]
  | .uriToStr => written
  | .paramParseall => [[.block]]
  | .fromParse => parsedN
  | .fromToStr => written
  | .viaParse => parsed
  | .viaToStr => written
  | .contactParse => parsedN
  | .contactToStr => written
  | .recordRouteToStr => written
  | .callIdParse => parsed
  | .callIdToStr => written
  | .callInfoParse => parsed
  | .callInfoToStr => written
  | .contentTypeParse => parsed
  | .contentTypeToStr => written
  | .contentLengthParse => parsed
  | .contentLengthToStr => written
  | .cseqParse => parsedN
  | .cseqToStr => written
  | .acceptToStr => written
  | .acceptEncodingParse => parsed
  | .acceptEncodingToStr => written
  | .quotedSet => [[.null], [.block]]
  | .tokenSet => [[.null], [.block]]
  | .wwwParse => parsed
  | .authorizationParse => parsed
  | .authInfoParse => parsed
  | .authToStr => written
  | .headerToStr => written
  | .setHeader => [.null] :: taken
  | .replaceHeader => [.null] :: taken
  | .bodyInit => [[.none]]
  | .bodySetContentType => [[.block, .null]]
  | .bodySetHeader => [[.null], [.block]]
  | .bodyParseHeader => [[.block, .null]]
  | .bodyParse => parsedN
  | .bodyParseMime => parsedN
  | .setBodyMime => [.null] :: taken
  | .bodyToStr => written
  | .startRequest => parsed
  | .startResponse => parsed
  | .startLine => parsed
  | .messageParse => parsed
  | .osipParse => [[.none]]
  | .startRequestToStr => written
  | .startResponseToStr => written
  | .startLineToStr => [[.block, .none], [.kept, .none]]
  | .strcatSimple => [[.block, .null], [.block, .kept]]
  | .strcatLines => [[.block]]
  | .messageRealloc => [[.block]]
  | .messageToStr => written
  | _ => taken

end Osip.Own
