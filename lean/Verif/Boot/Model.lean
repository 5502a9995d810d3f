import Verif.Params.Model

/-!
# Start of the control program

Model of the start of the program: the command line (PAC/common/prj_mngr.cpp, `project_manager::proc_main_params`, lines 39-149), the
check of the files and the execution of the scripts (common/lua_manager.cpp, `check_file` and `lua_manager::init`, lines 32-357),
the configuration (prj_mngr.cpp, `lua_load_configuration`, lines 211-328), and `main` up to its loop
(PAC_control_projects/main_control_prg/main.cpp lines 102-158); the ports of the server (PAC/common/tcp_cmctr.cpp lines 17-18, 97-101,
PAC/linux/l_tcp_cmctr.cpp lines 99 and 201); the check sum of the parameters (PAC/common/param_ex.cpp lines 33-71).

Simplifications: the options are those the library `cxxopts` has read; the search path of Lua (lua_manager.cpp lines 136-158) is left
out; errors of scripts are texts that fit the buffer of the log; nothing is printed; Linux, without Profibus.
-/
namespace Ptusa.Boot

/-- Bytes of a text. -/
abbrev Text := List Nat

/-- Bytes of a text of the program. -/
def bytes (s : String) : Text := s.toList.map Char.toNat

/-! ## Versions of the files -/

/-- `FILES` (lua_manager.cpp lines 60-72). -/
def files : List Text :=
  [bytes "sys.io.lua", bytes "sys.devices.lua", bytes "sys.objects.lua", bytes "main.io.lua", bytes "main.objects.lua",
    bytes "main.modbus_srv.lua", bytes "main.profibus.lua", bytes "main.restrictions.lua"]

/-- `FILES_VERSION` (common/lua_manager.h lines 29-40). -/
def versions : List Int := [2, 2, 8, 1, 1, 1, 1, 1]

/-- `fgets( str, n + 1, f )`: at most `n` bytes, up to and with the first line feed. -/
def fgets : Nat → Text → Text
  | 0, _ => []
  | _, [] => []
  | n + 1, c :: s => if c = 10 then [c] else c :: fgets n s

/-- White space of `sscanf`. -/
def isSpace (c : Nat) : Bool := c = 32 || (9 ≤ c && c ≤ 13)

/-- A decimal digit. -/
def isDigit (c : Nat) : Bool := 48 ≤ c && c ≤ 57

/-- The number with these digits. -/
def value (ds : Text) : Nat := ds.foldl (fun a d => 10 * a + (d - 48)) 0

/-- `%d`, the variable being 0 before; `none`: a number that is no `int` (undefined behaviour). -/
def scanInt (s : Text) : Option Int :=
  let neg := s.head? = some 45
  let s := if s.head? = some 45 ∨ s.head? = some 43 then s.tail else s
  let ds := s.takeWhile isDigit
  let v : Int := if neg then -(value ds : Int) else value ds
  if ds = [] then some 0
  else if -2147483648 ≤ v ∧ v < 2147483648 then some v
  else none

/-- Without the given beginning. -/
def strip : Text → Text → Option Text
  | [], s => some s
  | p :: ps, c :: s => if p = c then strip ps s else none
  | _ :: _, [] => none

/-- `sscanf( str, "--version = %d", &version )` with `version` 0 before (lua_manager.cpp line 48). -/
def scanVersion (s : Text) : Option Int :=
  match strip (bytes "--version") s with
  | none => some 0
  | some r =>
    match r.dropWhile isSpace with
    | 61 :: r => scanInt (r.dropWhile isSpace)
    | _ => some 0

/-- `check_file` (lua_manager.cpp lines 32-58): -1 without a file. -/
def checkFile (content : Option Text) : Option Int :=
  match content with
  | none => some (-1)
  | some t => scanVersion ((fgets 99 t).takeWhile fun c => c != 0)

/-! ## The start -/

/-- The command line. -/
structure Args where
  /-- `--help`, or no argument at all -/
  help : Bool := false
  rcrc : Bool := false
  port : Option Int := none
  sysDir : Text := []
  dir : Text := []

/-- What the outside world answers: files by their paths, whether the calls of scripts succeed, what they return. -/
structure World where
  file : Text → Option Text
  /-- `luaL_dofile` of a file -/
  runs : Nat → Bool
  /-- result of `system.get_PAC_id`, -1 for an error -/
  pacId : Int
  createIo : Bool
  createDevices : Bool
  deviceProps : Bool
  /-- result of `init_tech_objects`, -1 for an error -/
  techObjects : Int
  /-- result of `object_manager:get_objects_count`, -1 for an error -/
  count : Int
  /-- `object_manager:get_object( i )` is an object -/
  object : Nat → Bool
  profibus : Bool
  mainLoads : Bool
  mainRuns : Bool
  /-- the function `init` of the user, if there is one, succeeds -/
  userInit : Option Bool
  nameRus : Bool
  nameEng : Bool
  /-- the OPC UA server, if it is active, starts -/
  opcUa : Option Bool

/-- What the program does during the start. -/
inductive Ev where
  | resetSize
  | ports (a b : Int)
  | look (i : Nat)
  | run (i : Nat)
  | readParams (id : Int)
  | createIo
  | createDevices
  | deviceProps
  | techObjects
  | objectCount
  | object (i : Nat)
  /-- objects of the project, then the controller, the sirens and the recipes -/
  | register (objects : Nat)
  | profibus
  | runtimeParams
  | readImage
  | loadMain
  | runMain
  | userInit
  | names
  | listen (a b : BitVec 16)
  | finalParams
  | opcUa
  | iot
  deriving DecidableEq, Repr

/-- How a part of the start ends. -/
inductive Verdict where
  | ok
  | exit (code : Int)
  | ub
  deriving DecidableEq, Repr

/-- Parts in their order, until one of them does not end well. -/
def stages : List (Ev × Verdict) → List Ev × Verdict
  | [] => ([], .ok)
  | (e, .ok) :: l => (e :: (stages l).1, (stages l).2)
  | (e, v) :: _ => ([e], v)

/-- A call that must succeed. -/
def must (b : Bool) : Verdict := if b then .ok else .exit 1

/-- Path of a file in the buffer `path[ 100 ]` (lua_manager.cpp lines 168-177, 213-222); `none`: it does not fit. -/
def path (a : Args) (i : Nat) : Option Text :=
  let t := (if i < 3 then a.sysDir else a.dir) ++ files.getD i []
  if t.length < 100 then some t else none

/-- Check of a file (lua_manager.cpp lines 166-206). -/
def look (a : Args) (w : World) (i : Nat) : Ev × Verdict :=
  (.look i,
    match path a i with
    | none => .ub
    | some p =>
      match checkFile (w.file p) with
      | none => .ub
      | some v => if v = -1 then .exit 1 else if versions.getD i 0 ≠ v then .exit 1 else .ok)

/-- Execution of a file (lua_manager.cpp lines 214-234). -/
def exec (a : Args) (w : World) (i : Nat) : Ev × Verdict :=
  (.run i,
    match path a i with
    | none => .ub
    | some _ => must (w.runs i))

/-- Ports of the server: `proc_main_params` (prj_mngr.cpp lines 91-99); `none`: overflow. -/
def portsOf (a : Args) : Option (Int × Int) :=
  match a.port with
  | none => some (10000, 10502)
  | some p => if 0 < p then (if p + 502 < 2147483648 then some (p, p + 502) else none) else some (10000, 10502)

/-- `lua_load_configuration` (prj_mngr.cpp lines 211-328). -/
def loadConfiguration (w : World) : List (Ev × Verdict) :=
  [(.createIo, must w.createIo), (.createDevices, must w.createDevices), (.deviceProps, must w.deviceProps),
    (.techObjects, must (w.techObjects = 0)), (.objectCount, must (0 ≤ w.count))] ++
  (List.range w.count.toNat).map (fun i => (.object (i + 1), must (w.object (i + 1)))) ++
  [(.register w.count.toNat, .ok), (.profibus, .ok)]

/-- `lua_manager::init` (lua_manager.cpp lines 102-357). -/
def luaInit (a : Args) (w : World) (ports : Int × Int) : List (Ev × Verdict) :=
  (List.range 8).map (look a w) ++ (List.range 8).map (exec a w) ++ [(.readParams w.pacId, .ok)] ++ loadConfiguration w ++
  [(.runtimeParams, .ok), (.readImage, .ok), (.loadMain, must w.mainLoads), (.runMain, must w.mainRuns), (.userInit, .ok),
    (.names, must (w.nameRus && w.nameEng)), (.listen (BitVec.ofInt 16 ports.1) (BitVec.ofInt 16 ports.2), .ok), (.finalParams, .ok)]

/-- `main` up to its loop (main.cpp lines 102-158): what was done, and whether the loop is entered (`ok`) or how the program ends. -/
def start (a : Args) (w : World) : List Ev × Verdict :=
  if a.help then ([], .exit 0)
  else
    match portsOf a with
    | none => ([], .ub)
    | some ports =>
      stages ((if a.rcrc then [(.resetSize, .ok)] else []) ++ [(.ports ports.1 ports.2, .ok)] ++ luaInit a w ports ++
        (match w.opcUa with
          | some b => [(.opcUa, must b)]
          | none => []) ++ [(.iot, .ok)])

/-! ## The check sum of the parameters -/

/-- One step of the check sum (param_ex.cpp lines 45-50). -/
def crcBit (c : BitVec 16) : BitVec 16 := if c.getLsbD 0 then (c >>> 1) ^^^ 0xA001#16 else c >>> 1

/-- One byte (param_ex.cpp lines 44-50); `char` is signed. -/
def crcByte (c : BitVec 16) (b : BitVec 8) : BitVec 16 :=
  crcBit (crcBit (crcBit (crcBit (crcBit (crcBit (crcBit (crcBit (c ^^^ b.signExtend 16))))))))

/-- `params_manager::solve_CRC` (param_ex.cpp lines 33-71). -/
def solveCrc (params : List (BitVec 8)) (id : BitVec 32) : BitVec 16 :=
  crcByte (crcByte (params.foldl crcByte 0xFFFF#16) (id.truncate 8)) ((id >>> 8).truncate 8)

end Ptusa.Boot
