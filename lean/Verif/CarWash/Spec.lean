import Verif.CarWash.Model

/-!
# A ledger of the cars
-/
namespace Ptusa.CarWash

/-- What an attendant writes down: the cars at the four places, which places are switched on, whether the line is at work, the cars that are being washed, and for each car
the caustic washes since its last acid wash. -/
structure Ledger where
  busy : Bool := false
  place : Fin 4 → Name := fun _ => []
  on : Fin 4 → Bool := fun _ => false
  washed : List Name := []
  total : Name → Nat := fun _ => 0

/-- The cars at the places that are switched on. -/
def Ledger.chosen (l : Ledger) : List Name := ((List.finRange 4).filter l.on).map l.place

def Ledger.note (l : Ledger) : Ev → Ledger
  | .panel i n => if i = 0 ∧ l.busy then l else { l with place := fun j => if j = i then n else l.place j }
  | .server i n => { l with place := fun j => if j = i then n else l.place j }
  | .switch i v => if l.busy then l else { l with on := fun j => if j = i then v else l.on j }
  | .start true => if l.busy then l else { l with busy := true, washed := [], on := fun _ => false }
  | .start false => if l.busy ∨ l.chosen = [] then l else { l with busy := true, washed := l.chosen }
  | .caustic => { l with total := fun n => if n ∈ l.washed then l.total n + 1 else l.total n }
  | .acid => { l with total := fun n => if n ∈ l.washed then 0 else l.total n }
  | .finish => if l.busy then { l with busy := false, place := fun _ => [], on := fun _ => false, washed := [] } else l
  | .clear => if l.busy then l else { l with place := fun _ => [] }

def ledger (h : List Ev) : Ledger := h.foldl Ledger.note {}

/-- A wash is started for the first place only, and the server does not change the number there while the line is at work. -/
def Plain (l : Ledger) : Ev → Prop
  | .start false => ∀ i, l.on i = true → i = 0
  | .server i _ => i = 0 → l.busy = false
  | _ => True

/-- It was so all the time. -/
def AllPlain : Ledger → List Ev → Prop
  | _, [] => True
  | l, e :: h => Plain l e ∧ AllPlain (l.note e) h

end Ptusa.CarWash
