import Verif.Boot.Model

/-!
# What a start of the program needs
-/
namespace Ptusa.Boot

/-- Where a file is looked for. -/
def place (a : Args) (i : Nat) : Text := (if i < 3 then a.sysDir else a.dir) ++ files.getD i []

/-- The versions of the files this program needs. -/
def needed : Nat → Int
  | 0 => 2 | 1 => 2 | 2 => 8 | 3 => 1 | 4 => 1 | 5 => 1 | 6 => 1 | 7 => 1 | _ => 0

/-- The file is there, with the version the program needs. -/
def Right (a : Args) (w : World) (i : Nat) : Prop :=
  ∃ t, w.file (place a i) = some t ∧ checkFile (some t) = some (needed i)

/-- Everything the loop of the program relies on is there, apart from the user's own preparation. -/
structure Loaded (a : Args) (w : World) : Prop where
  started : a.help = false
  files : ∀ i, i < 8 → Right a w i
  scripts : ∀ i, i < 8 → w.runs i = true
  io : w.createIo = true
  devices : w.createDevices = true
  props : w.deviceProps = true
  tech : w.techObjects = 0
  count : 0 ≤ w.count
  objects : ∀ i : Nat, 1 ≤ i → (i : Int) ≤ w.count → w.object i = true
  main : w.mainLoads = true ∧ w.mainRuns = true
  names : w.nameRus = true ∧ w.nameEng = true
  opcUa : w.opcUa ≠ some false

/-- The same with the user's function `init` and the description of the Profibus. -/
structure Ready (a : Args) (w : World) : Prop extends Loaded a w where
  userInit : w.userInit ≠ some false
  profibus : w.profibus = true
  pacId : w.pacId ≠ -1

/-- The directories leave room for the names of the files. -/
def Short (a : Args) : Prop := ∀ i, i < 8 → (place a i).length < 100

/-- The whole start, in its order. -/
def plan (a : Args) (w : World) (p q : Int) : List Ev :=
  (if a.rcrc then [.resetSize] else []) ++ [.ports p q] ++ (List.range 8).map .look ++ (List.range 8).map .run ++ [.readParams w.pacId] ++
  [.createIo, .createDevices, .deviceProps, .techObjects, .objectCount] ++ (List.range w.count.toNat).map (fun i => .object (i + 1)) ++
  [.register w.count.toNat, .profibus, .runtimeParams, .readImage, .loadMain, .runMain, .userInit, .names,
    .listen (BitVec.ofInt 16 p) (BitVec.ofInt 16 q), .finalParams] ++ (if w.opcUa.isSome then [.opcUa] else []) ++ [.iot]

/-- The program acts on the project: anything but looking at files and at the command line. -/
def Ev.acts : Ev → Bool
  | .resetSize | .ports _ _ | .look _ => false
  | _ => true

end Ptusa.Boot
