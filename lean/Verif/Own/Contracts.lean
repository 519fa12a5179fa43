import Verif.Own.Spec
import Verif.Own.Check

/-!
# The contracts of the functions of Verif/Own/Parse.lean

Nothing here is part of the model; these are hints for the checker, which checks them (`contracts_ok` in Verif/Own/Props.lean).
-/

set_option autoImplicit false

namespace Osip.Own

/-- An empty structure is filled. -/
def cParse : Contract := [([.fresh], [(false, [.live]), (true, [.live])])]
def cParseN : Contract := ([.null], [(false, [.null])]) :: cParse
/-- A structure stays what it is. -/
def cSet : Contract := [([.live], [(false, [.live]), (true, [.live])]), ([.kept], [(false, [.kept]), (true, [.kept])])]
def cSetN : Contract := ([.null], [(false, [.null])]) :: cSet
def cMake : Contract := [([.dead], [(false, [.null]), (true, [.fresh])])]
def cWriteAny : Contract := [([.live, .dead], [(false, [.live, .null]), (true, [.live, .live])]), ([.kept, .dead], [(false, [.kept, .null]), (true, [.kept, .live])])]
def cWrite : Contract := ([.null, .dead], [(false, [.null, .null])]) :: cWriteAny
def cWriteD : Contract := ([.null, .dead], [(false, [.null, .dead])]) :: cWriteAny

/-- The contracts. -/
def contract : Fun → Contract
  | .structInit => cMake
  | .bodyInit => cMake
  | .paramSet => [([.fresh, .live, .live], [(true, [.live, .kept, .kept])]), ([.fresh, .live, .null], [(true, [.live, .kept, .null])])]
  | .paramAdd => [([.live, .live], [(false, [.live, .live]), (true, [.kept, .kept])]), ([.live, .null], [(false, [.live, .null]), (true, [.kept, .null])])]
  | .uriParseHeaders => [([.live], [(false, [.live]), (true, [.live])])]
  | .uriParseParams => [([.live], [(false, [.live]), (true, [.live])])]
  | .paramParseall => [([.live], [(false, [.live]), (true, [.live])])]
  | .uriEscape => [([.dead], [(false, [.null]), (true, [.live])])]
  | .osipParse => [([.dead], [(false, [.null]), (true, [.live])])]
  | .fromParse => cParseN
  | .contactParse => cParseN
  | .cseqParse => cParseN
  | .bodyParse => cParseN
  | .bodyParseMime => cParseN
  | .uriParse => cParse
  | .viaParse => cParse
  | .callIdParse => cParse
  | .callInfoParse => cParse
  | .contentTypeParse => cParse
  | .contentLengthParse => cParse
  | .acceptEncodingParse => cParse
  | .wwwParse => cParse
  | .authorizationParse => cParse
  | .authInfoParse => cParse
  | .startRequest => cParse
  | .startResponse => cParse
  | .startLine => cParse
  | .messageParse => [([.fresh], [(false, [.fresh]), (false, [.live]), (true, [.live])])]
  | .quotedSet => [([.null], [(false, [.null]), (true, [.live]), (true, [.null])]), ([.live], [(true, [.live])])]
  | .tokenSet => [([.null], [(false, [.null]), (true, [.live]), (true, [.null])]), ([.live], [(true, [.live])])]
  | .setHeader => cSetN
  | .replaceHeader => cSetN
  | .setBodyMime => cSetN
  | .bodySetHeader => [([.null], [(false, [.null])]), ([.live], [(false, [.live]), (true, [.live])])]
  | .bodySetContentType => [([.live, .null], [(false, [.live, .null]), (true, [.live, .live])])]
  | .bodyParseHeader => [([.live, .null], [(false, [.live, .null]), (false, [.live, .live]), (true, [.live, .null]), (true, [.live, .live])])]
  | .contactToStr => cWriteD
  | .contentLengthToStr => cWriteD
  | .startLineToStr =>
    [([.live, .dead], [(false, [.live, .null]), (true, [.live, .live]), (false, [.live, .dead])]),
      ([.kept, .dead], [(false, [.kept, .null]), (true, [.kept, .live]), (false, [.kept, .dead])])]
  | .strcatSimple => [([.live, .null], [(true, [.live, .null])]), ([.live, .kept], [(false, [.live, .kept]), (true, [.live, .kept])])]
  | .strcatLines => [([.live], [(false, [.live]), (true, [.live])])]
  | .messageRealloc => [([.live], [(true, [.live])])]
  | .uriToStr => cWrite
  | .fromToStr => cWrite
  | .viaToStr => cWrite
  | .recordRouteToStr => cWrite
  | .callIdToStr => cWrite
  | .callInfoToStr => cWrite
  | .contentTypeToStr => cWrite
  | .cseqToStr => cWrite
  | .acceptToStr => cWrite
  | .acceptEncodingToStr => cWrite
  | .authToStr => cWrite
  | .headerToStr => cWrite
  | .bodyToStr => cWrite
  | .startRequestToStr => cWrite
  | .startResponseToStr => cWrite
  | .messageToStr => cWrite
  | _ => cSet

def contracts (m : Mode) (twice : Bool) (f : Fun) : Contract := if f ∈ unsafeFuns m twice then [] else contract f

/-- All functions. -/
def allFuns : List Fun :=
  [.structInit, .paramSet, .paramAdd, .uriParseHeaders, .uriParseParams, .uriParse, .uriEscape, .uriToStr, .paramParseall, .fromParse,
    .fromToStr, .viaParse, .viaToStr, .contactParse, .contactToStr, .recordRouteToStr, .callIdParse, .callIdToStr, .callInfoParse,
    .callInfoToStr, .contentTypeParse, .contentTypeToStr, .contentLengthParse, .contentLengthToStr, .cseqParse, .cseqToStr, .acceptToStr,
    .acceptEncodingParse, .acceptEncodingToStr, .quotedSet, .tokenSet, .wwwParse, .authorizationParse, .authInfoParse, .authToStr,
    .headerToStr, .setVia, .appendVia, .setRoute, .setContact, .setCallInfo, .setAccept, .setAcceptEncoding, .setAllow, .setWww,
    .setAuthorization, .setAuthInfo, .setFrom, .setCallId, .setCseq, .setContentType, .setContentLength, .setHeader, .replaceHeader,
    .bodyInit, .bodySetContentType, .bodySetHeader, .bodyParseHeader, .bodyParse, .bodyParseMime, .setBody, .setBodyMime, .bodyToStr,
    .startRequest, .startResponse, .startLine, .callMethod, .setAnyHeader, .setMultiple, .headersParse, .bodiesParse, .messageParse,
    .osipParse, .startRequestToStr, .startResponseToStr, .startLineToStr, .strcatSimple, .strcatLines, .messageRealloc, .messageToStr]

theorem mem_allFuns (f : Fun) : f ∈ allFuns := by cases f <;> decide +kernel

theorem contracts_all : (∀ m ∈ [Mode.none, .notNodes, .any], ∀ twice ∈ [false, true], ∀ f ∈ allFuns,
    (contracts m twice f).all (checkEntry m (contracts m twice) (code twice f)) = true) := by decide +kernel

theorem contracts_ok (m : Mode) (twice : Bool) (f : Fun) :
    (contracts m twice f).all (checkEntry m (contracts m twice) (code twice f)) = true :=
  contracts_all m (by cases m <;> decide) twice (by cases twice <;> decide) f (mem_allFuns f)

end Osip.Own
