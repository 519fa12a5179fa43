import Verif.Base

/-!
# The compensated clock: `osip_compensatetime` and `osip_getsystemtime` (src/osip2/osip_time.c:217-283)

The variant that is compiled with `ANDROID` on Linux. `clock_gettime` succeeds. Only the seconds are modelled, the code uses nothing
else. The readings of the two clocks are given with each call, one for the beginning and one for the end of the call, since the clocks
go on meanwhile; no other thread calls the functions at the same time.
-/

set_option autoImplicit false

namespace Osip.Clock

/-- `offset` (src/osip2/osip_time.c:29) and the static variables of `osip_compensatetime` (src/osip2/osip_time.c:220-221). -/
structure State where
  offset : Int := 0
  last_now_monotonic : Int := 0
  last_now_real : Int := 0
  deriving DecidableEq

/-- What `CLOCK_REALTIME` and `CLOCK_MONOTONIC` show. -/
structure Reading where
  real : Int
  mono : Int

/-- `osip_gettimeofday` (src/osip2/osip_time.c:126-138). -/
def osip_gettimeofday (s : State) (r : Reading) : Int := r.mono + s.offset

/-- `osip_compensatetime` (src/osip2/osip_time.c:217-266) with the readings at its beginning and at its end. -/
def osip_compensatetime (s : State) (first last : Reading) : State :=
  let now_real := first.real
  let now_monotonic := osip_gettimeofday s first - s.offset
  if now_real = 0 then s
  else if s.last_now_monotonic = 0 then { s with last_now_real := last.real, last_now_monotonic := osip_gettimeofday s last - s.offset }
  else
    let diff_monotonic := now_monotonic - s.last_now_monotonic
    let diff_real := now_real - s.last_now_real
    if diff_real < 5 then s
    else if diff_real > 3600 then s
    else if diff_real < diff_monotonic + 2 then s
    else
      let s := { s with offset := s.offset + (diff_real - diff_monotonic) }
      { s with last_now_real := last.real, last_now_monotonic := osip_gettimeofday s last - s.offset }

/-- `osip_getsystemtime` (src/osip2/osip_time.c:269-283): the state and the value. -/
def osip_getsystemtime (s : State) (first last : Reading) : State × Int :=
  let s := osip_compensatetime s first last
  (s, osip_gettimeofday s last)

/-- Calls of `osip_getsystemtime` one after the other: the state and the values. -/
def calls : State → List (Reading × Reading) → State × List Int
  | s, [] => (s, [])
  | s, r :: rs =>
    let x := osip_getsystemtime s r.1 r.2
    let y := calls x.1 rs
    (y.1, x.2 :: y.2)

end Osip.Clock
