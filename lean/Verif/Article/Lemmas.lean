import Verif.Article.Spec
import Mathlib.Data.List.Induction
/-! Helper lemmas on article numbers. -/
namespace Ptusa.Article
open Ptusa.IolSens

theorem find_nil {α : Type} (s : String) : find ([] : List (String × α)) s = none := rfl

theorem find_cons {α : Type} (k s : String) (v : α) (t : List (String × α)) :
    find ((k, v) :: t) s = if s = k then some v else find t s := by
  unfold find
  by_cases h : s = k
  · subst h; simp
  · rw [if_neg h, List.find?_cons_of_neg]
    simp only [decide_eq_true_eq]; exact fun e => h e.symm

theorem ite_getD {α : Type} (c : Prop) [Decidable c] (v : α) (o : Option α) (d : α) :
    (if c then some v else o).getD d = if c then v else o.getD d := by
  by_cases h : c
  · rw [if_pos h, if_pos h]; rfl
  · rw [if_neg h, if_neg h]

theorem readP_eq (s : String) (old : PArticle) : readP s old = (find pressureTable s).getD old := by
  unfold pressureTable readP
  simp only [find_cons, ite_getD, find_nil, Option.getD_none]

theorem readL_eq (s : String) (old : LArticle) : readL s old = (find switchTable s).getD old := by
  unfold switchTable readL
  simp only [find_cons, ite_getD, find_nil, Option.getD_none]

/-- Closed form of a history of texts. -/
theorem run_texts {α : Type} (read : String → α → α) (t : List (String × α))
    (hr : ∀ s old, read s old = (find t s).getD old) (ss : List String) :
    ∀ d : Dev α, run read d (ss.map .text) =
      some ⟨if ss = [] then d.text else ss.getLast?, (lastKnown t ss).getD d.n⟩ := by
  induction ss with
  | nil => intro d; rfl
  | cons s ss ih =>
    intro d
    show run read ⟨some s, read s d.n⟩ (ss.map .text) = _
    rw [ih]
    congr 2
    · rw [if_neg (List.cons_ne_nil _ _)]
      cases ss with
      | nil => rfl
      | cons a as => rw [if_neg (List.cons_ne_nil _ _), List.getLast?_cons_cons]
    · show (lastKnown t ss).getD (read s d.n) = (lastKnown t (s :: ss)).getD d.n
      unfold lastKnown
      rw [List.reverse_cons, List.findSome?_append, hr]
      cases List.findSome? (find t) ss.reverse with
      | some v => rfl
      | none =>
        simp only [Option.getD_none, Option.none_or]
        simp only [List.findSome?_cons, List.findSome?_nil]
        cases find t s <;> rfl

end Ptusa.Article
