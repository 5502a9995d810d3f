import Verif.Cip.Inv

/-!
# Checking concrete histories, for examples
-/
namespace Ptusa.Cip

variable {n : Nat}

theorem whole_iff (v : Rat) : Whole v ↔ v.den = 1 ∧ 0 ≤ v.num ∧ v.num < 2 ^ 32 := by
  constructor
  · rintro ⟨m, rfl, h⟩
    exact ⟨Rat.den_natCast m, by simp, by simp; exact_mod_cast h⟩
  · rintro ⟨h1, h2, h3⟩
    refine ⟨v.num.toNat, ?_, by omega⟩
    have h4 : (v.num : Rat) = v := Rat.coe_int_num_of_den_eq_one h1
    have h5 : ((v.num.toNat : Int) : Rat) = (v.num : Rat) := by rw [Int.toNat_of_nonneg h2]
    exact (h4.symm.trans h5.symm).trans (Int.cast_natCast _)

instance (v : Rat) : Decidable (Whole v) := decidable_of_iff _ (whole_iff v).symm

section
variable (s : Sys n) (e : Ev n) (i : Fin n)
instance : Decidable (NoSkip s e) := by cases e <;> unfold NoSkip <;> infer_instance
instance : Decidable (NoChange s e) := by cases e <;> unfold NoChange <;> infer_instance
instance : Decidable (NoUnlock s e) := by cases e <;> unfold NoUnlock <;> infer_instance
instance : Decidable (NoEarlyUnlock i s e) := by cases e <;> unfold NoEarlyUnlock <;> infer_instance
instance : Decidable (Busy i s e) := by unfold Busy; infer_instance
instance : Decidable (ObjectsOk s e) := by cases e <;> unfold ObjectsOk <;> infer_instance
instance : Decidable (WholeEdits s e) := by cases e <;> unfold WholeEdits <;> infer_instance
instance : Decidable (Selectable s e) := by cases e <;> unfold Selectable <;> infer_instance
instance (cs : List Nat) : Decidable (Without i cs s e) := by cases e <;> unfold Without <;> infer_instance
instance : Decidable (NoProgram i s e) := by cases e <;> unfold NoProgram <;> infer_instance
instance : Decidable (NoReprogram s e) := by cases e <;> unfold NoReprogram <;> infer_instance
instance (l : Line) : Decidable l.AtRest := by unfold Line.AtRest; infer_instance
instance : Decidable (AcidDue i s e) := by cases e <;> unfold AcidDue <;> infer_instance
end

instance (l : Line) : Decidable l.Washing := by unfold Line.Washing; infer_instance

/-- `Along` can be checked for a concrete history. -/
def alongDec (c : Cfg) (P : Sys n → Ev n → Prop) [∀ s e, Decidable (P s e)] : (s : Sys n) → (es : List (Ev n)) →
    Decidable (Along c P s es)
  | _, [] => .isTrue True.intro
  | s, e :: es =>
    match hs : c.step s e, decEq (decide (P s e)) true with
    | _, .isFalse h => .isFalse fun x => h (by simpa using x.1)
    | none, .isTrue h => .isTrue ⟨by simpa using h, fun t ht => by rw [hs] at ht; cases ht⟩
    | some t, .isTrue h =>
      match alongDec c P t es with
      | .isTrue k => .isTrue ⟨by simpa using h, fun t' ht => by rw [hs] at ht; injection ht with ht; subst ht; exact k⟩
      | .isFalse k => .isFalse fun x => k (x.2 t hs)

instance (c : Cfg) (P : Sys n → Ev n → Prop) [∀ s e, Decidable (P s e)] (s : Sys n) (es : List (Ev n)) :
    Decidable (Along c P s es) := alongDec c P s es

/-- A property of the state a history leads to. -/
theorem run_ex (c : Cfg) (s : Sys n) (es : List (Ev n)) (Q : Sys n → Prop) [∀ s, Decidable (Q s)]
    (h : (c.run s es).any (fun s => decide (Q s)) = true) : ∃ s', c.run s es = some s' ∧ Q s' := by
  cases hr : c.run s es with
  | none => rw [hr] at h; cases h
  | some t => rw [hr] at h; exact ⟨t, rfl, by simpa using h⟩

end Ptusa.Cip
