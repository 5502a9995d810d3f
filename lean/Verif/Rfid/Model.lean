/-!
# RFID reader

Model of `rfid_reader` (common/RFID/rfid_reader.cpp, common/RFID/rfid_reader.h): the list of tags in the antenna field, kept by a callback of the
driver, and the connection.

Simplifications: one reader (readers have no common state except the buffer of line 358, and a callback is ignored by the readers with
another handle, lines 318-319); a callback is not interrupted by the main thread and does not interrupt it; the result of the check of
reachability (lines 32-96) is one value; a failing `stopAsyncREading` has no effect on the members of the class.
-/
namespace Ptusa.Rfid

/-- A tag in a report of the driver (`tEPCListEntry`): words of the EPC, port of the antenna, strength of the signal. -/
structure Tag where
  words : List Nat
  port : Nat
  rssi : Nat
  deriving DecidableEq, Repr

/-- `EPC_info` (rfid_reader.h lines 45-63). -/
structure Entry where
  text : List Char
  antenna : Nat
  rssi : Nat
  deriving DecidableEq, Repr

/-- Upper case digits of `%X`. -/
def hexDigit (n : Nat) : Char :=
  if n < 10 then Char.ofNat (48 + n) else Char.ofNat (55 + n)

/-- `%04X` of a word of 16 bits. -/
def hex4 (w : Nat) : List Char := [hexDigit (w / 4096 % 16), hexDigit (w / 256 % 16), hexDigit (w / 16 % 16), hexDigit (w % 16)]

/-- The text made of the words, the last one first, in a buffer of `EPC_STR_LENGTH` = 40 characters (lines 330-338, 358-366); `none`: it does
not fit with its terminator. -/
def epcText (words : List Nat) : Option (List Char) :=
  let t := words.reverse.flatMap hex4
  if t.length < 40 then some t else none

/-- Coming tag (lines 328-342): an array of `MAX_EPS_COUNT` = 10 entries of which the first `EPC_cnt` are in use; `none`: a write beyond it. -/
def coming (l : List Entry) (t : Tag) : Option (List Entry) :=
  if l.length < 10 then (epcText t.words).map fun x => l ++ [⟨x, t.port, t.rssi⟩] else none

/-- The loop over the entries (lines 368-384): after a deletion the index goes on. -/
def deleteFrom (x : List Char) (port : Nat) (l : List Entry) (j : Nat) : List Entry :=
  if h : j < l.length then
    if port = l[j].antenna ∧ x = l[j].text then deleteFrom x port (l.eraseIdx j) (j + 1)
    else deleteFrom x port l (j + 1)
  else l
termination_by l.length - j
decreasing_by
  · rw [List.length_eraseIdx_of_lt h]; omega
  · omega

/-- Going tag (lines 356-385). -/
def going (l : List Entry) (t : Tag) : Option (List Entry) :=
  (epcText t.words).map fun x => deleteFrom x t.port l 0

/-- `tComingGoingFlag`; all other values are only printed (lines 400-413). -/
inductive Flag where
  | coming
  | going
  | changing
  deriving DecidableEq, Repr

/-- The loop over the report (lines 321-416). -/
def report (flag : Flag) : List Entry → List Tag → Option (List Entry)
  | l, [] => some l
  | l, t :: ts =>
    match flag with
    | .coming => (coming l t).bind fun l => report flag l ts
    | .going => (going l t).bind fun l => report flag l ts
    | .changing => report flag l ts

/-- Members: handle of the driver (0: none), tags, failures in a row, asynchronous reading, error reported. -/
structure Reader where
  handle : Nat := 0
  tags : List Entry := []
  retr : Nat := 0
  going : Bool := false
  err : Bool := false
  deriving DecidableEq, Repr

/-- Result of a command to the reader. -/
inductive Cmd where
  | ok
  | badFlag
  | timeout
  | sendFailed
  deriving DecidableEq, Repr

/-- `disconnect` (lines 167-182). -/
def disconnect (r : Reader) : Reader :=
  let r := if r.handle ≠ 0 then { r with tags := [], handle := 0 } else r
  { r with going := false }

/-- A failure (lines 692-696, 706-710). -/
def failed (r : Reader) : Reader :=
  let r := { r with retr := r.retr + 1 }
  if 3 < r.retr then disconnect r else r

/-- `CallSetExtResultFlag` (lines 651-713). -/
def setFlag (r : Reader) : Cmd → Reader × Bool
  | .ok => ({ r with retr := 0 }, true)
  | .badFlag => (r, false)
  | .timeout => (failed r, false)
  | .sendFailed => (failed r, false)

/-- `CallASyncReadDataAny` (lines 493-568). -/
def readAny (r : Reader) (flag read : Cmd) : Reader :=
  let (r, ok) := setFlag r flag
  if ok then
    if r.going then r else if read = .ok then { r with going := true } else r
  else r

/-- A call of the manager of critical errors. -/
inductive Out where
  | setError
  | resetError
  deriving DecidableEq, Repr

/-- The connection (lines 29-103): `reachable`: `select` was positive; `h`: result of `ConnectReader`. -/
def link (r : Reader) (reachable : Bool) (h : Nat) (flag read : Cmd) : Reader :=
  let r := if r.handle = 0 then if reachable then { r with handle := h } else r else r
  if r.handle ≠ 0 then readAny r flag read else r

/-- Reporting (lines 106-128). -/
def supervise (r : Reader) : Reader × List Out :=
  if r.handle = 0 then
    if r.err = false then ({ r with err := true }, [.setError]) else (r, [])
  else if r.err then ({ r with err := false }, [.resetError]) else (r, [])

/-- `evaluate` (lines 27-132). -/
def evaluate (r : Reader) (reachable : Bool) (h : Nat) (flag read : Cmd) : Reader × List Out := supervise (link r reachable h flag read)

/-- `get_EPC_info` (lines 137-145): `none`: an element before the array. -/
def getInfo (r : Reader) (idx : Int) : Option (Option Entry) :=
  if idx ≤ r.tags.length then
    if 1 ≤ idx then some r.tags[(idx - 1).toNat]? else none
  else some none

/-- What happens to a reader. -/
inductive Ev where
  | evaluate (reachable : Bool) (h : Nat) (flag read : Cmd)
  /-- the callback (lines 311-423) -/
  | report (h : Nat) (flag : Flag) (tags : List Tag)
  deriving DecidableEq, Repr

/-- One event. -/
def step (r : Reader) : Ev → Option (Reader × List Out)
  | .evaluate reachable h flag read => some (evaluate r reachable h flag read)
  | .report h flag ts => if r.handle = h then (report flag r.tags ts).map fun l => ({ r with tags := l }, []) else some (r, [])

/-- A history with everything it reported. -/
def run : Reader → List Ev → Option (Reader × List Out)
  | r, [] => some (r, [])
  | r, e :: es => (step r e).bind fun x => (run x.1 es).map fun y => (y.1, x.2 ++ y.2)

end Ptusa.Rfid
