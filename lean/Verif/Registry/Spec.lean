import Verif.Registry.Model

/-!
# What a user of the manager of devices relies on
-/
namespace Ptusa.Registry

/-- The program has a class for the kind of device that is registered. -/
def Supported (r : Reg) : Prop := ∃ c, make r.type r.sub r.article = some c

/-- The description lists the devices of every type one after another, by ascending name. -/
def Ordered (rs : List Reg) : Prop :=
  ∀ (i j : Nat) (a b : Reg), i < j → rs[i]? = some a → rs[j]? = some b → a.type = b.type →
    a.name < b.name ∧ ∀ (k : Nat) (c : Reg), i < k → k < j → rs[k]? = some c → c.type = a.type

/-- No name is used by two devices. -/
def Unique (rs : List Reg) : Prop :=
  ∀ (i j : Nat) (a b : Reg), rs[i]? = some a → rs[j]? = some b → a.name = b.name → i = j

/-- The manager right after the start of the program; `silent`: missing devices are not logged. -/
def fresh (silent : Bool) : Mgr := { silent := silent }

/-- The classes whose objects have the functions that the program expects behind a function of it, by the documentation
of the classes (base.h, device.h, valve.h). -/
def Has (c : Cls) : Acc → Prop
  | .V => c ∈ [Cls.stub, .valveDO1, .valveDO2, .valveDO1DI1off, .valveDO1DI1on, .valveDO1DI2, .valveDO2DI2,
      .valveMixProof, .valveASmixProof, .valveBottom, .valveASDO1DI2, .valveBistable, .termDO1, .termDI1off, .termDI1on,
      .iolMixProof, .geaDs, .sorio, .geaSs, .thinktop, .termDO1DI2, .virtualValve, .miniFlushing, .termDO3, .termDO3DI2]
  | .M => c ∈ [Cls.motor, .altivar, .altivarLinear, .virtualMotor]
  | .LT => c ∈ [Cls.levelE, .levelECyl, .levelECone, .levelEIol]
  | .WT => c ∈ [Cls.stub, .wages, .virtualWages, .wagesRS232, .wagesEth, .wagesPxc]
  | .HLA => c ∈ [Cls.stub, .columnDiscrete, .columnIol]
  | .CAM => c ∈ [Cls.stub, .camera, .cameraDI2, .cameraDI3]
  | _ => True

end Ptusa.Registry
