import Verif.MsgText.Model

/-!
# What a message says
-/
namespace Ptusa.MsgText
open SaveDev

/-- An operation: its number and, between apostrophes, its name. -/
def Obj.op (o : Obj) (n : Int) : Txt := intText n ++ " '".toList ++ o.oper n ++ "'".toList

/-- The parts of a message: what happened, and why. -/
def Obj.parts (o : Obj) (why : Txt) (a b : Int) : Kind → List Txt
  | .cantOn => ["не включена операция ".toList ++ o.op a, why]
  | .onWithErrors => ["включена с ошибкой операция ".toList ++ o.op a, why]
  | .off => ["отключена операция ".toList ++ o.op a, why]
  | .offAndOn => ("переход от ".toList ++ o.op a ++ " к ".toList ++ o.op b) :: (if why = [] then [] else [why])
  | .duringWork => if 0 < a then ["операция ".toList ++ o.op a, why] else [why]
  | .alarm => [why]
  | .toFail => ["авария операции ".toList ++ o.op a, why]
  | .cantOn2Oper =>
    ["не включена операция ".toList ++ o.op a, "уже включена операция ".toList ++ o.op b] ++ (if why = [] then [] else [why])
  | .cantOn2Obj => ["не включена операция ".toList ++ o.op a, why]
  | .other => ["операция ".toList ++ o.op a, why]

/-- The object: its name, and its number if the kind is known. -/
def Obj.subject (o : Obj) (k : Kind) : Txt :=
  "'".toList ++ o.name ++ (if k = .other then [] else " ".toList ++ intText o.number) ++ "'".toList

/-- The sentence: subject and parts with dashes between, and a full stop. -/
def Obj.sentence (o : Obj) (why : Txt) (a b : Int) (k : Kind) : Txt :=
  o.subject k ++ ((o.parts why a b k).flatMap fun p => " - ".toList ++ p) ++ ".".toList

/-- Bytes that are the UTF-8 of some text. -/
def Utf8 (m : List Nat) : Prop := ∃ t : Txt, m = enc t

/-- The kinds that are alarms. -/
def Alarming (k : Kind) : Prop := k = .alarm ∨ k = .toFail ∨ k = .other

/-- The messages that were set and not acknowledged since. -/
def unacked : List Ev → List (Nat × Kind)
  | [] => []
  | .post n k :: t => if Ev.ack n ∈ t then unacked t else (n, k) :: unacked t
  | .ack _ :: t => unacked t

/-- The numbers of the messages set. -/
def numbers : List Ev → List Nat
  | [] => []
  | .post n _ :: t => n :: numbers t
  | .ack _ :: t => numbers t

/-- Each message is set when fewer than ten wait to be acknowledged. -/
def NotCrowded (h : List Ev) : Prop := ∀ a n k b, h = a ++ Ev.post n k :: b → (unacked a).length < 10

end Ptusa.MsgText
