import Verif.Panel.Model

/-!
# Parameters of a washing station at the panel

Model of the group `C_MSA_STATIONPARAMS` of the Modbus server (PAC/common/modbus_serv.cpp 209-211, 507-510, 738-743, 961-971), `get_station_par` and `set_station_par`
(PAC/common/cip_tech_def.cpp 1472-1480) and of `saved_params::save` (PAC/common/param_ex.h 489-507).  The values are those in memory; that `save` also keeps them over a
restart is in `Params`.  Left out: the debug output.
-/
namespace Ptusa.PanStat
open Tcp (Byte Buf put get)
open Modbus (packFloat unpackFloat forceBit pair coilBytes)
open Panel (nonzero)

/-- `get_station_par`: `operator[]` (param_ex.h 191-200); nothing ever changes the stub of `parpar`. -/
def value (vals : List (BitVec 32)) (i : Nat) : BitVec 32 := if i ≤ vals.length ∧ 0 < i then vals.getD (i - 1) 0 else 0

/-- `set_station_par`: `save` (param_ex.h 489-507). -/
def save (vals : List (BitVec 32)) (i : Nat) (v : BitVec 32) : List (BitVec 32) :=
  if 0 < i ∧ i ≤ vals.length then vals.set (i - 1) v else vals

/-- Coils are read (modbus_serv.cpp 209-211). -/
def readCoils (vals : List (BitVec 32)) (addr n : Nat) (b : Buf) : Buf :=
  (List.range n).foldl (fun b i => forceBit b 3 i (nonzero (value vals (addr + i)))) b

/-- Registers are read (lines 507-510); the loop advances by two, `i = 2 * j`. -/
def readRegs (vals : List (BitVec 32)) (addr n : Nat) (b : Buf) : Buf :=
  (List.range ((n + 1) / 2)).foldl (fun b j => put b (3 + 2 * (2 * j)) (packFloat (value vals ((addr + 2 * j) / 2)))) b

/-- A coil is written (lines 738-743). -/
def writeCoil (vals : List (BitVec 32)) (obj : Nat) (on : Bool) : List (BitVec 32) :=
  if obj < vals.length then save vals obj (if on then 0x3F800000 else 0) else vals

/-- One float is written (lines 961-971), for `i = 2 * j`. -/
def writeOne (addr : Nat) (b : Buf) (vals : List (BitVec 32)) (j : Nat) : List (BitVec 32) :=
  if (addr + 2 * j) / 2 ≤ vals.length then save vals ((addr + 2 * j) / 2) (unpackFloat (get b (7 + 2 * (2 * j)) 4)) else vals

/-- Registers are written. -/
def writeRegs (vals : List (BitVec 32)) (addr n : Nat) (b : Buf) : List (BitVec 32) :=
  (List.range ((n + 1) / 2)).foldl (writeOne addr b) vals

/-- What is left by a request. -/
structure Out where
  vals : List (BitVec 32)
  buf : Buf
  len : Nat

/-- `ModbusService` for the group `C_MSA_STATIONPARAMS` (101; lines 145-1054).  `none`: another group. -/
def serve (vals : List (BitVec 32)) (m : Buf) : Option Out :=
  let addr := pair m 2
  let n := pair m 4
  if (m 0).toNat ≠ 101 then none
  else
    match (m 1).toNat with
    | 0x01 => some ⟨vals, readCoils vals addr n (put m 2 [BitVec.ofNat 8 (coilBytes n)]), 3 + coilBytes n⟩
    | 0x03 => some ⟨vals, readRegs vals addr n (put m 2 [BitVec.ofNat 8 (2 * n)]), 3 + n * 2⟩
    | 0x05 => some ⟨writeCoil vals addr (0 < (m 4).toNat), m, 6⟩
    | 0x10 => some ⟨writeRegs vals addr n m, m, 6⟩
    | _ => some ⟨vals, m, 0⟩

/-- The requests of panels one after the other. -/
def run (vals : List (BitVec 32)) (h : List Buf) : List (BitVec 32) :=
  h.foldl (fun vals m => match serve vals m with | some o => o.vals | none => vals) vals

end Ptusa.PanStat
