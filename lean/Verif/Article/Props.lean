import Verif.Article.Lemmas
/-!
# C214: the article number decides how the data of a sensor are read
-/
namespace Ptusa.Article
open Ptusa.IolSens

/-- C214, one call, as the program does it when it creates a device: the layout is that of the article,
the default one for any other text; exactly the numbers of the table are known. -/
theorem C214_created_device (s : String) :
    (run readP (fresh .default) [.text s]).map (fun d => (d.text, d.n))
      = some (some s, (find pressureTable s).getD .default) ∧
    (run readL (fresh .default) [.text s]).map (fun d => (d.text, d.n))
      = some (some s, (find switchTable s).getD .default) := by
  have h1 := run_texts readP pressureTable readP_eq [s] (fresh .default)
  have h2 := run_texts readL switchTable readL_eq [s] (fresh .default)
  refine ⟨?_, ?_⟩
  · show Option.map _ (run readP (fresh .default) ([s].map .text)) = _
    rw [h1]
    show some (some s, (lastKnown pressureTable [s]).getD _) = _
    unfold lastKnown
    simp only [List.reverse_singleton, List.findSome?_cons, List.findSome?_nil]
    cases find pressureTable s <;> rfl
  · show Option.map _ (run readL (fresh .default) ([s].map .text)) = _
    rw [h2]
    show some (some s, (lastKnown switchTable [s]).getD _) = _
    unfold lastKnown
    simp only [List.reverse_singleton, List.findSome?_cons, List.findSome?_nil]
    cases find switchTable s <;> rfl

/-- C214, the data: a pressure sensor created with an article of the table shows what that sensor
measures, any other text shows zero. -/
theorem C214_reading_by_article (s : String) (m : Img) :
    (run readP (fresh .default) [.text s]).map (fun d => pressureEval d.n m)
      = some (match find pressureTable s with
          | some a => pressureEval a m
          | none => (m, ⟨.num 0, 0⟩)) := by
  have h := (C214_created_device s).1
  cases hr : run readP (fresh .default) [.text s] with
  | none => rw [hr] at h; cases h
  | some d =>
    rw [hr] at h
    simp only [Option.map_some, Option.some.injEq, Prod.mk.injEq] at h
    simp only [Option.map_some, Option.some.injEq]
    rw [h.2]
    cases find pressureTable s <;> rfl

/-- C214, any history of texts: the layout is that of the last article that is known.
`_partial`: it should be that of the last article. -/
theorem C214_last_article_partial (ss : List String) (s : String) (d : Dev PArticle)
    (e : Dev LArticle) (hd : run readP (fresh .default) ((ss ++ [s]).map .text) = some d)
    (he : run readL (fresh .default) ((ss ++ [s]).map .text) = some e) :
    d.text = some s ∧ e.text = some s ∧
    (∀ a, find pressureTable s = some a → d.n = a) ∧
    (∀ a, find switchTable s = some a → e.n = a) := by
  rw [run_texts readP pressureTable readP_eq] at hd
  rw [run_texts readL switchTable readL_eq] at he
  cases hd; cases he
  have hne : ¬ (ss ++ [s] = []) := by simp
  refine ⟨?_, ?_, ?_, ?_⟩
  · show (if ss ++ [s] = [] then _ else _) = _
    rw [if_neg hne, List.getLast?_concat]
  · show (if ss ++ [s] = [] then _ else _) = _
    rw [if_neg hne, List.getLast?_concat]
  · intro a ha
    show (lastKnown pressureTable (ss ++ [s])).getD _ = a
    unfold lastKnown
    rw [List.reverse_append]
    show ((List.findSome? (find pressureTable) (s :: ss.reverse))).getD _ = a
    rw [List.findSome?_cons, ha]; rfl
  · intro a ha
    show (lastKnown switchTable (ss ++ [s])).getD _ = a
    unfold lastKnown
    rw [List.reverse_append]
    show ((List.findSome? (find switchTable) (s :: ss.reverse))).getD _ = a
    rw [List.findSome?_cons, ha]; rfl

/-- C214 is violated when an unknown article follows a known one: whatever the known one, the device
goes on reading its data in that layout, while it names the new article. -/
theorem C214_unknown_after_known_violated (s u : String) (a : PArticle)
    (hs : find pressureTable s = some a) (hu : find pressureTable u = none) :
    (run readP (fresh .default) [.text s, .text u]).map (fun d => (d.text, d.n))
      = some (some u, a) := by
  have h := run_texts readP pressureTable readP_eq [s, u] (fresh .default)
  show Option.map _ (run readP (fresh .default) ([s, u].map .text)) = _
  rw [h]
  show some (some u, (lastKnown pressureTable [s, u]).getD _) = _
  unfold lastKnown
  simp only [List.reverse_cons, List.reverse_nil, List.nil_append, List.cons_append,
    List.findSome?_cons, hu, hs, Option.getD_some]

/-- C214 is violated by handing a device its own article: the text is deleted before it is copied. -/
theorem C214_own_text_violated (ss : List String) :
    run readP (fresh .default) (ss.map .text ++ [.own]) = none := by
  have : ∀ d : Dev PArticle, run readP d (ss.map .text ++ [.own]) = none := by
    induction ss with
    | nil => intro d; rfl
    | cons s ss ih => intro d; exact ih _
  exact this _

/-- The table has no number twice, so "the sensor with an article number" is meant. -/
example : (pressureTable.map (·.1)).Nodup ∧ (switchTable.map (·.1)).Nodup := by decide +kernel

example : find pressureTable "IFM.PM1708" = some .pm1708 ∧ find pressureTable "IFM.PM1710" = none ∧
    find pressureTable "ifm.pm1708" = none := by decide +kernel

example : (run readL (fresh .default) [.text "IFM.LMT100", .text "E&H.FTL33-GR7N2ABW5J"]).map (·.n)
    = some .ftl33 := by decide +kernel

end Ptusa.Article
