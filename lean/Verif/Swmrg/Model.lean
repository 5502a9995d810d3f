/-!
# Single writer, many readers

Model of `CSWMRG` (common/win_util/SWMRG.cpp, SWMRG.h): any number of threads share a resource.

What lies between `EnterCriticalSection` and `LeaveCriticalSection` is one step; waiting for a semaphore and releasing it are
steps of their own, so that every interleaving of the threads outside of the critical section is a history of the model. A
semaphore gives its units to any of the waiting threads. Simplifications: fewer than 2^31 threads, so that the counters do not
overflow; `Done` is called only by a thread that has access, as its comment demands; construction and destruction happen without
other threads.
-/
namespace Ptusa.Swmrg

/-- Where a thread is: outside; waiting for `m_hsemReaders`, for `m_hsemWriters`; having shared, having exclusive access; in
`Done` behind the critical section, about to release `n` units of the semaphore of the readers, one unit of that of the
writers. -/
inductive Th
  | out
  | waitR
  | waitW
  | reads
  | writes
  | freeR (n : Nat)
  | freeW
  deriving DecidableEq

/-- The members of the guard (SWMRG.h 25-33), the units in the semaphores, the threads. -/
structure St where
  waitingReaders : Nat := 0
  waitingWriters : Nat := 0
  active : Int := 0
  semR : Nat := 0
  semW : Nat := 0
  ths : List Th
  deriving DecidableEq

/-- The constructor (SWMRG.cpp 13-21) with `n` threads outside. -/
def start (n : Nat) : St := { ths := List.replicate n .out }

/-- What a thread does next. -/
inductive Act
  /-- `WaitToRead` up to the end of the critical section -/
  | askR
  /-- `WaitToWrite` up to the end of the critical section -/
  | askW
  /-- `WaitForSingleObject` returns -/
  | wake
  /-- `Done` up to the end of the critical section -/
  | done
  /-- `ReleaseSemaphore` at the end of `Done` -/
  | free
  deriving DecidableEq

/-- The thread `i` is at `t` now. -/
def St.put (s : St) (i : Nat) (t : Th) : St := { s with ths := s.ths.set i t }

/-- The critical section of `WaitToRead` (SWMRG.cpp 47-76). -/
def askR (s : St) (i : Nat) : St :=
  if s.waitingWriters ≠ 0 ∨ s.active < 0 then { s with waitingReaders := s.waitingReaders + 1 }.put i .waitR
  else { s with active := s.active + 1 }.put i .reads

/-- The critical section of `WaitToWrite` (SWMRG.cpp 79-108). -/
def askW (s : St) (i : Nat) : St :=
  if s.active ≠ 0 then { s with waitingWriters := s.waitingWriters + 1 }.put i .waitW
  else { s with active := -1 }.put i .writes

/-- The critical section of `Done` (SWMRG.cpp 111-159). -/
def done (s : St) (i : Nat) : St :=
  let s := if s.active > 0 then { s with active := s.active - 1 } else { s with active := s.active + 1 }
  if s.active = 0 then
    if s.waitingWriters > 0 then { s with active := -1, waitingWriters := s.waitingWriters - 1 }.put i .freeW
    else if s.waitingReaders > 0 then
      { s with active := s.waitingReaders, waitingReaders := 0 }.put i (.freeR s.waitingReaders)
    else s.put i .out
  else s.put i .out

/-- One step of thread `i`; `none`: it is not there, or the semaphore is empty. -/
def step (s : St) (i : Nat) (a : Act) : Option St :=
  match s.ths[i]?, a with
  | some .out, .askR => some (askR s i)
  | some .out, .askW => some (askW s i)
  | some .waitR, .wake => if 0 < s.semR then some ({ s with semR := s.semR - 1 }.put i .reads) else none
  | some .waitW, .wake => if 0 < s.semW then some ({ s with semW := s.semW - 1 }.put i .writes) else none
  | some .reads, .done => some (done s i)
  | some .writes, .done => some (done s i)
  | some (.freeR n), .free => some ({ s with semR := s.semR + n }.put i .out)
  | some .freeW, .free => some ({ s with semW := s.semW + 1 }.put i .out)
  | _, _ => none

/-- A history: which thread does what. -/
def run (s : St) : List (Nat × Act) → Option St
  | [] => some s
  | (i, a) :: l => (step s i a).bind fun s => run s l

end Ptusa.Swmrg
