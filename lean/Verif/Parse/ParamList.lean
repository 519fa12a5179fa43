import Verif.Parse.Case
import Verif.Parse.Ptr
import Verif.Str.Port

/-!
# Lists of parameters: `src/osipparser2/osip_uri.c`

The functions that add a parameter and look one up, on the blocks of the strings. They are also the functions of generic parameters
(include/osipparser2/osip_message.h:425, 432). A list is its elements; no element is the null pointer. Allocation of the structure
succeeds. `none` is undefined behaviour: the null pointer is read, or a byte outside of a block.
-/

set_option autoImplicit false

namespace Osip

/-- `osip_uri_param_t` (include/osipparser2/osip_uri.h:55-59) with the blocks of its strings; `none` is the null pointer. -/
structure RawParam where
  gname : Option Buf
  gvalue : Option Buf
deriving DecidableEq, Repr

/-- `osip_uri_param_set` (src/osipparser2/osip_uri.c:801-811): the blocks are kept, the blanks around the strings are removed. -/
def osip_uri_param_set (pname pvalue : Option Buf) : Option (Int × RawParam) := do
  let (_, pname) ← osip_clrspace pname
  match pvalue with
  | none => return (OSIP_SUCCESS, ⟨pname, none⟩)
  | some b =>
    let (_, b) ← osip_clrspace (some b)
    return (OSIP_SUCCESS, ⟨pname, b⟩)

/-- `osip_uri_param_add` (src/osipparser2/osip_uri.c:813-829). -/
def osip_uri_param_add (l : List RawParam) (pname pvalue : Option Buf) : Option (Int × List RawParam) := do
  let (i, p) ← osip_uri_param_set pname pvalue
  if i ≠ 0 then return (i, l)
  return (OSIP_SUCCESS, l ++ [p])

/-- The loop of `osip_uri_param_get_byname` (src/osipparser2/osip_uri.c:857-868): code and `*url_param`. -/
def getByNameLoop (pname : Buf) (len : Nat) : List RawParam → Option (Int × Option RawParam)
  | [] => some (OSIP_UNDEFINED_ERROR, none)
  | p :: ps => do
    let gname ← p.gname
    let s ← cstr gname
    if len = s.length then
      let k ← osip_strncasecmp gname pname len
      if k = 0 then return (OSIP_SUCCESS, some p)
      getByNameLoop pname len ps
    else getByNameLoop pname len ps

/-- `osip_uri_param_get_byname` (src/osipparser2/osip_uri.c:843-869). -/
def osip_uri_param_get_byname (l : List RawParam) (pname : Option Buf) : Option (Int × Option RawParam) :=
  match pname with
  | none => some (OSIP_BADPARAMETER, none)
  | some pname => do
    let s ← cstr pname
    if s.length = 0 then return (OSIP_BADPARAMETER, none)
    getByNameLoop pname s.length l

end Osip
