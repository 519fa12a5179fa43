import Verif.Base

/-!
# Time stamps (src/osip2/osip_time.c)

`struct timeval` with unbounded integers (the C fields are 64-bit `time_t`/`suseconds_t`; no
wrap-around is modelled there). C's `/` and `%` on signed integers are `Int.tdiv`/`Int.tmod`.
-/

namespace Osip

/-- `struct timeval`. -/
structure TimeVal where
  sec : Int
  usec : Int
deriving DecidableEq, Repr, Inhabited

/-- The value the library stores in `tv_sec` for "timer not started"; `tv_usec` is left alone. -/
def TimeVal.off (t : TimeVal) : TimeVal := { t with sec := -1 }

/-- include/osip2/osip.h:170-195 -/
def DEFAULT_T1 : Int := 500
/-- include/osip2/osip.h:170-195 -/
def DEFAULT_T1_TCP_PROGRESS : Int := 50
/-- include/osip2/osip.h:170-195 -/
def DEFAULT_T2 : Int := 4000
/-- include/osip2/osip.h:170-195 -/
def DEFAULT_T4 : Int := 5000

/-- `add_gettimeofday` (src/osip2/osip_time.c:31-46). -/
def add_gettimeofday (atv : TimeVal) (ms : Int) : TimeVal :=
  if ms ≥ 1000000 then
    { sec := atv.sec + ms.tdiv 1000, usec := 0 }
  else
    let u := atv.usec + ms * 1000
    { sec := atv.sec + u.tdiv 1000000, usec := u.tmod 1000000 }

/-- `osip_timercmp (a, b, >)` (include/osip2/osip_time.h:54-60; glibc's `timercmp` is the same). -/
def timerGt (a b : TimeVal) : Bool :=
  if a.sec = b.sec then decide (a.usec > b.usec) else decide (a.sec > b.sec)

/-- `min_timercmp` (src/osip2/osip_time.c:48-58). -/
def min_timercmp (tv1 tv2 : TimeVal) : TimeVal :=
  if tv2.sec = -1 then tv1
  else if timerGt tv1 tv2 then tv2 else tv1

end Osip
