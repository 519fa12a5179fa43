import Verif.Str.Buf

/-!
# The table of known headers: `src/osipparser2/osip_parser_cfg.c`

`minisize` is the compile-time switch `MINISIZE`. The hash is computed as in C on 32-bit unsigned
integers; whether `char` is signed is a parameter.
-/

set_option autoImplicit false

namespace Osip

/-- The function pointers stored in the table: `osip_message_set_<name>`. -/
inductive Setter
  | accept | accept_encoding | accept_language | alert_info | allow | authentication_info
  | authorization | content_type | call_id | call_info | contact | content_encoding | content_length
  | cseq | error_info | «from» | mime_version | proxy_authenticate | proxy_authentication_info
  | proxy_authorization | record_route | route | to | via | www_authenticate
  deriving DecidableEq, Repr

/-- `__osip_message_config_t` (src/osipparser2/parser.h:33-37). -/
structure Config where
  hname : Str
  setheader : Setter
  ignored_when_invalid : Bool
  deriving DecidableEq, Repr

def cfg (n : String) (ign : Bool) (s : Setter) : Config := ⟨n.toList, s, ign⟩

/-- The assignments to `pconfig` in `parser_init` (src/osipparser2/osip_parser_cfg.c:63-170); names from
include/osipparser2/osip_const.h:34-87. -/
def pconfig (minisize : Bool) : List Config :=
  (if minisize then [] else
    [cfg "accept" true .accept, cfg "accept-encoding" true .accept_encoding,
     cfg "accept-language" true .accept_language, cfg "alert-info" true .alert_info,
     cfg "allow" true .allow, cfg "authentication-info" true .authentication_info]) ++
  [cfg "authorization" true .authorization, cfg "c" false .content_type, cfg "call-id" false .call_id] ++
  (if minisize then [] else [cfg "call-info" true .call_info]) ++
  [cfg "contact" false .contact] ++
  (if minisize then [] else [cfg "content-encoding" true .content_encoding]) ++
  [cfg "content-length" false .content_length, cfg "content-type" false .content_type,
   cfg "cseq" false .cseq] ++
  (if minisize then [] else [cfg "e" true .content_encoding, cfg "error-info" true .error_info]) ++
  [cfg "f" false .from, cfg "from" false .from, cfg "i" false .call_id, cfg "l" false .content_length,
   cfg "m" false .contact, cfg "mime-version" true .mime_version,
   cfg "proxy-authenticate" true .proxy_authenticate] ++
  (if minisize then [] else [cfg "proxy-authentication-info" true .proxy_authentication_info]) ++
  [cfg "proxy-authorization" true .proxy_authorization, cfg "record-route" true .record_route,
   cfg "route" true .route, cfg "t" false .to, cfg "to" false .to, cfg "v" false .via,
   cfg "via" false .via, cfg "www-authenticate" true .www_authenticate]

/-- `NUMBER_OF_HEADERS` (src/osipparser2/parser.h:26-30). -/
def NUMBER_OF_HEADERS (minisize : Bool) : Nat := if minisize then 22 else 33

/-- `HASH_TABLE_SIZE` (src/osipparser2/osip_parser_cfg.c:34-41). -/
def HASH_TABLE_SIZE : Nat := 150

/-- `(unsigned int) c` for an `int c` assigned from a `char` of byte value `c.toNat`. -/
def charBits (signed : Bool) (c : Char) : Nat :=
  if signed ∧ 128 ≤ c.toNat then (c.toNat + (4294967296 - 256)) % 4294967296 else c.toNat % 4294967296

/-- `osip_hash` (src/osipparser2/osip_port.c:1406-1416) on the string `s`. -/
def osip_hash (signed : Bool) (s : Str) : Nat :=
  s.foldl (fun hash c => ((hash * 32 + hash) + charBits signed c) % 4294967296) 5381

/-- The loop which fills `hdr_ref_table` (src/osipparser2/osip_parser_cfg.c:180-203). A slot is `none` for
-1. The result is `none` if two names meet, and for an access outside the table or `pconfig`. -/
def fillTable (signed minisize : Bool) : Nat → Nat → List (Option Nat) → Option (List (Option Nat))
  | 0, _, t => some t
  | k + 1, i, t => do
    let e ← (pconfig minisize)[i]?
    let hash := osip_hash signed e.hname % HASH_TABLE_SIZE
    match t[hash]? with
    | none => none
    | some (some _) => none
    | some none => fillTable signed minisize k (i + 1) (t.set hash (some i))

/-- `parser_init` (src/osipparser2/osip_parser_cfg.c:58-206): the hash table, `none` for an error. -/
def parser_init (signed minisize : Bool) : Option (List (Option Nat)) :=
  fillTable signed minisize (NUMBER_OF_HEADERS minisize) 0 (List.replicate HASH_TABLE_SIZE none)

/-- `__osip_message_is_known_header` (src/osipparser2/osip_parser_cfg.c:210-228); the outer `none` is an
access outside the tables, `some none` is -1. -/
def is_known_header (signed minisize : Bool) (t : List (Option Nat)) (hname : Str) : Option (Option Nat) :=
  match t[osip_hash signed hname % HASH_TABLE_SIZE]? with
  | none => none
  | some none => some none
  | some (some index) =>
    match (pconfig minisize)[index]? with
    | none => none
    | some e => some (if e.hname = hname then some index else none)

/-- `__osip_message_call_method` (src/osipparser2/osip_parser_cfg.c:233-247); `set` stands for the setters
with their message and header value and gives their return codes. -/
def call_method (minisize : Bool) (set : Setter → Int) (i : Nat) : Option Int :=
  match (pconfig minisize)[i]? with
  | none => none
  | some e =>
    let err := set e.setheader
    some (if e.ignored_when_invalid then 0 else err)

/-- `osip_message_set__header` (src/osipparser2/osip_message_parse.c:397-423) for a non-null name;
`unknown` is the return code of `osip_message_set_header`. The result also says which setter has been
called (`none` for `osip_message_set_header`). -/
def set__header (signed minisize : Bool) (t : List (Option Nat)) (set : Setter → Int) (unknown : Int)
    (hname : Str) : Option (Int × Option Setter) := do
  let my_index ← is_known_header signed minisize t hname
  match my_index with
  | some i =>
    let e ← (pconfig minisize)[i]?
    let ret ← call_method minisize set i
    return (if ret ≠ 0 then ret else 0, some e.setheader)
  | none => return (if unknown ≠ 0 then 0 else 0, none)

end Osip
