import Verif.CarWash.Lemmas

/-!
# C222: washes are counted for the cars that are washed
-/
namespace Ptusa.CarWash

/-- **C222** (part). If washes are started with the first place only, and the server does not change the number at it during a wash, the caustic washes of each
car are those of the ledger; so are the numbers at the places, the switches, and whether the line is at work. -/
theorem C222_counted_partial (h : List Ev) (hp : AllPlain {} h) :
    (∀ n, ((run h).count n).getD 0 = (ledger h).total n) ∧ (run h).car = (ledger h).place ∧ (run h).sw = (ledger h).on ∧
    (run h).active = (ledger h).busy := by
  have s := sim_run sim_init h hp
  exact ⟨s.total, s.car, s.sw, s.busy⟩

def bus : Name := "1234 AB-7".toList

def twice : List Ev :=
  [.panel 0 bus, .switch 0 true, .start false, .panel 0 "x".toList, .caustic, .finish, .panel 0 bus, .switch 0 true, .start false, .caustic]

example : AllPlain {} twice ∧ (ledger twice).total bus = 2 ∧ (run twice).count bus = some 2 := by
  refine ⟨?_, by decide +kernel, by decide +kernel⟩
  simp only [twice, AllPlain, Plain]
  decide +kernel

/-- **C222** does not hold: a car at another place is not counted, whatever its number; nor is its acid wash.  If only its place is switched on, the wash is counted
for the car whose number stands at the first place. -/
theorem C222_other_places_violated (i : Fin 4) (hi : i ≠ 0) (a b : Name) (hab : a ≠ b) :
    let h : List Ev := [.panel 0 a, .panel i b, .switch i true, .start false, .caustic]
    (ledger h).total b = 1 ∧ (ledger h).total a = 0 ∧ (run h).count b = none ∧ (run h).count a = some 1 := by
  have key : ∀ i : Fin 4, i ≠ 0 → (run [.panel 0 a, .panel i b, .switch i true, .start false, .caustic]).count b = none ∧
      (run [.panel 0 a, .panel i b, .switch i true, .start false, .caustic]).count a = some 1 ∧
      (ledger [.panel 0 a, .panel i b, .switch i true, .start false, .caustic]).total = fun n => if n ∈ [b] then 1 else 0 := by
    intro i hi
    have hba : b ≠ a := fun h => hab h.symm
    have c : i = 1 ∨ i = 2 ∨ i = 3 := by
      revert hi
      revert i
      decide
    rcases c with rfl | rfl | rfl <;>
      refine ⟨?_, ?_, ?_⟩ <;>
      simp [run, ledger, step, Ledger.note, St.setCar, St.ifExists, St.getStats, St.counted, upd, Ledger.chosen, finRange4, hab, hba]
  intro h
  obtain ⟨e1, e2, e3⟩ := key i hi
  have e4 : (ledger h).total = fun n => if n ∈ [b] then 1 else 0 := e3
  refine ⟨?_, ?_, e1, e2⟩
  · rw [e4]; simp
  · rw [e4]
    show (if a ∈ [b] then 1 else 0) = 0
    rw [if_neg (by simpa using hab)]

example : (run [.panel 0 bus, .panel 2 "77".toList, .switch 2 true, .start false, .caustic]).count bus = some 1 := by decide +kernel

/-- **C222** does not hold: when the server sets the number at the first place during a wash, the wash is counted for the new number if that car is known,
and for nobody otherwise. -/
theorem C222_changed_violated (a b : Name) (hab : a ≠ b) :
    let h : List Ev := [.panel 0 a, .switch 0 true, .start false, .server 0 b, .caustic]
    (ledger h).total a = 1 ∧ (run h).count a = some 0 ∧ (run h).count b = none := by
  have hba : b ≠ a := fun h => hab h.symm
  intro h
  refine ⟨?_, ?_, ?_⟩ <;>
    simp [h, run, ledger, step, Ledger.note, St.setCar, St.ifExists, St.getStats, St.counted, upd, Ledger.chosen, finRange4, hab, hba, List.filter]

example : (run ([.panel 0 "77".toList, .switch 0 true, .start false, .finish] ++
    [.panel 0 bus, .switch 0 true, .start false, .server 0 "77".toList, .caustic])).count "77".toList = some 1 := by decide +kernel

end Ptusa.CarWash
