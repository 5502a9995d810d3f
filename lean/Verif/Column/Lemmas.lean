import Verif.Column.Spec
import Mathlib.Data.List.Perm.Basic

/-!
# Lemmas about the signal column
-/
namespace Ptusa.Column

theorem blink_light (l : Lamp) (now d : BitVec 64) : (l.blink now d).light = .blinking := by
  have h : (l.blink now d).step = .blinkOn ∨ (l.blink now d).step = .blinkOff := by
    unfold Lamp.blink
    cases l.step <;> simp only <;> (try split) <;> simp_all
  unfold Lamp.light
  rcases h with h | h <;> rw [h]

theorem turnOff_light (l : Lamp) : l.turnOff.light = .dark := rfl

theorem turnOn_light (l : Lamp) : l.turnOn.light = .steady := rfl

theorem lights_picture (c : Col) (e : Show) (now : BitVec 64) :
    (c.lights e now).picture = pictureOf c.constRed (importance e) := by
  cases e <;> simp [Col.lights, Col.picture, pictureOf, importance, blink_light, turnOff_light, turnOn_light,
    Col.blinkRed]
  cases c.constRed <;> simp [blink_light, turnOn_light]

theorem lights_shown (c : Col) (e : Show) (now : BitVec 64) :
    (c.lights e now).shown = c.shown ∧ (c.lights e now).constRed = c.constRed ∧
    (c.lights e now).manual = c.manual := by
  cases e <;> simp [Col.lights, Col.blinkRed]

theorem post_shown (c : Col) (e : Show) (now : BitVec 64) (hm : c.manual = false) :
    (c.post e now).shown = (if allowed e c.shown then e else c.shown) ∧
    (c.post e now).constRed = c.constRed ∧ (c.post e now).manual = false := by
  unfold Col.post
  rw [if_neg (by simp [hm])]
  split
  · have := lights_shown { c with shown := e } e now
    exact ⟨this.1, this.2.1, this.2.2.trans hm⟩
  · exact ⟨rfl, rfl, hm⟩

/-- When the column shows the picture of what it remembers, it does so after a posting. -/
theorem post_picture (c : Col) (e : Show) (now : BitVec 64) (hm : c.manual = false)
    (h : c.picture = pictureOf c.constRed (importance c.shown) ∨ allowed e c.shown = true) :
    (c.post e now).picture = pictureOf c.constRed (importance (c.post e now).shown) := by
  have hs := (post_shown c e now hm).1
  rw [hs]
  unfold Col.post
  rw [if_neg (by simp [hm])]
  by_cases ha : allowed e c.shown = true
  · rw [if_pos ha, if_pos ha]
    exact lights_picture { c with shown := e } e now
  · rw [if_neg ha, if_neg ha]
    rcases h with h | h
    · exact h
    · exact absurd h ha

/-- What is remembered after the postings. -/
def foldShown (s : Show) (es : List Show) : Show := es.foldl (fun s e => if allowed e s then e else s) s

theorem posts_spec (ps : List (Show × BitVec 64)) : ∀ (c : Col), c.manual = false →
    (c.picture = pictureOf c.constRed (importance c.shown)) →
    (c.posts ps).shown = foldShown c.shown (ps.map Prod.fst) ∧
    (c.posts ps).picture = pictureOf c.constRed (importance (c.posts ps).shown) := by
  induction ps with
  | nil => intro c _ h; exact ⟨rfl, h⟩
  | cons p ps ih =>
    intro c hm h
    have hp := post_shown c p.1 p.2 hm
    have := ih (c.post p.1 p.2) hp.2.2 (by rw [hp.2.1]; exact post_picture c p.1 p.2 hm (.inl h))
    rw [hp.1, hp.2.1] at this
    exact this

theorem allowed_idle (e : Show) : allowed e .idle = true := by cases e <;> rfl

theorem cycle_spec (c : Col) (hm : c.manual = false) (p : Show × BitVec 64) (ps : List (Show × BitVec 64)) :
    (c.cycle (p :: ps)).shown = foldShown .idle ((p :: ps).map Prod.fst) ∧
    (c.cycle (p :: ps)).picture = pictureOf c.constRed (importance (c.cycle (p :: ps)).shown) := by
  have hm' : c.evaluateIo.manual = false := hm
  have hp := post_shown c.evaluateIo p.1 p.2 hm'
  have hpic := post_picture c.evaluateIo p.1 p.2 hm' (.inr (allowed_idle _))
  have := posts_spec ps (c.evaluateIo.post p.1 p.2) hp.2.2 (by rw [hp.2.1]; exact hpic)
  rw [hp.1, hp.2.1] at this
  exact this

theorem foldShown_importance (es : List Show) : ∀ s : Show,
    ¬ ((.batchRun ∈ es ∨ s = .batchRun) ∧ (.opNot ∈ es ∨ s = .opNot)) →
    importance (foldShown s es) = max (importance s) (top es) := by
  induction es with
  | nil => intro s _; simp [foldShown, top]
  | cons e es ih =>
    intro s h
    have hstep : importance (if allowed e s then e else s) = max (importance s) (importance e) := by
      by_cases h1 : e = .batchRun ∧ s = .opNot
      · exact absurd ⟨.inl (by simp [h1.1]), .inr h1.2⟩ h
      · revert h1
        cases e <;> cases s <;> simp [allowed, importance]
    have hne : ¬ ((.batchRun ∈ es ∨ (if allowed e s then e else s) = .batchRun) ∧
        (.opNot ∈ es ∨ (if allowed e s then e else s) = .opNot)) := by
      intro hc
      apply h
      simp only [List.mem_cons]
      revert hc
      split
      · rintro ⟨h1 | h1, h2 | h2⟩ <;> simp_all
      · rintro ⟨h1 | h1, h2 | h2⟩ <;> simp_all
    have := ih _ hne
    rw [show foldShown s (e :: es) = foldShown (if allowed e s then e else s) es from rfl, this, hstep]
    simp only [top, List.foldr_cons]
    rw [Nat.max_assoc]

theorem importance_le_top (es : List Show) : ∀ e ∈ es, importance e ≤ top es := by
  induction es with
  | nil => simp
  | cons a es ih =>
    intro e he
    simp only [top, List.foldr_cons]
    rcases List.mem_cons.mp he with rfl | h
    · exact Nat.le_max_left _ _
    · exact Nat.le_trans (ih e h) (Nat.le_max_right _ _)

theorem top_mem (es : List Show) (h : es ≠ []) : ∃ e ∈ es, importance e = top es := by
  induction es with
  | nil => exact absurd rfl h
  | cons a es ih =>
    simp only [top, List.foldr_cons]
    by_cases hle : importance a ≤ top es
    · by_cases he : es = []
      · subst he
        exact ⟨a, by simp, by simp⟩
      · obtain ⟨e, hm, heq⟩ := ih he
        exact ⟨e, by simp [hm], by rw [heq]; exact (Nat.max_eq_right hle).symm⟩
    · exact ⟨a, by simp, (Nat.max_eq_left (by simp only [top] at hle; omega)).symm⟩

theorem post_manual (c : Col) (e : Show) (now : BitVec 64) (h : c.manual = true) : c.post e now = c := by
  simp [Col.post, h]

end Ptusa.Column
