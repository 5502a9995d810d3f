import Verif.MsgText.Lemmas

/-!
# C219: messages of an object
-/
namespace Ptusa.MsgText
open SaveDev

/-- **C219** (part). A message that has room is the whole sentence. -/
theorem C219_text_partial (o : Obj) (why : Txt) (a b : Int) (k : Kind) (h : (enc (o.sentence why a b k)).length ≤ 597) :
    o.message why a b k = enc (o.sentence why a b k) := by
  have fin : ∀ t : Txt, t = o.sentence why a b k → printed size t = enc (o.sentence why a b k) := by
    intro t e
    rw [e]
    exact printed_fit (by unfold size; omega)
  have two : ∀ t : Txt, (t ++ if why = [] then ['.'] else reason why) = o.sentence why a b k →
      append (printed size (t ++ ['.'])) why = enc (o.sentence why a b k) := by
    intro t e
    rw [← e] at h ⊢
    exact append_fit t why h
  cases k with
  | offAndOn =>
    refine two _ ?_
    unfold Obj.sentence Obj.parts Obj.subject Obj.who Obj.what Obj.op reason
    by_cases w : why = [] <;> simp [w]
  | cantOn2Oper =>
    refine two _ ?_
    unfold Obj.sentence Obj.parts Obj.subject Obj.who Obj.what Obj.op reason
    by_cases w : why = [] <;> simp [w]
  | duringWork =>
    by_cases m : 0 < a
    · show (if 0 < a then _ else _) = _
      rw [if_pos m]
      refine fin _ ?_
      unfold Obj.sentence Obj.parts Obj.subject Obj.who Obj.what Obj.op reason
      simp [m]
    · show (if 0 < a then _ else _) = _
      rw [if_neg m]
      refine fin _ ?_
      unfold Obj.sentence Obj.parts Obj.subject Obj.who
      simp [m]
  | _ =>
    refine fin _ ?_
    simp [Obj.sentence, Obj.parts, Obj.subject, Obj.who, Obj.what, Obj.op, reason]

/-- A tank with one operation. -/
def tank : Obj := ⟨"Танк".toList, 3, fun _ => "Мойка".toList⟩

example : tank.message "нет воды".toList 1 2 .offAndOn = enc "'Танк 3' - переход от 1 'Мойка' к 2 'Мойка' - нет воды.".toList := by decide +kernel

/-- **C219**. No message is longer than its place, the end included. -/
theorem C219_bounded (o : Obj) (why : Txt) (a b : Int) (k : Kind) : (o.message why a b k).length < 600 := by
  have p : ∀ t, (printed size t).length ≤ 599 := printed_length size
  apply Nat.lt_succ_of_le
  cases k with
  | offAndOn => exact append_length (p _) _
  | cantOn2Oper => exact append_length (p _) _
  | duringWork =>
    show (if 0 < a then _ else _ : List Nat).length ≤ 599
    by_cases m : 0 < a
    · rw [if_pos m]; exact p _
    · rw [if_neg m]; exact p _
  | _ => exact p _

example : (tank.message (List.replicate 1000 'x') 1 2 .alarm).length = 599 := by decide +kernel

/-- **C219** does not hold for long texts: for every object whose name leaves room there is a reason such that the message of the alarm ends
in the middle of a character. -/
theorem C219_cut_violated (o : Obj) (ho : (enc o.who).length ≤ 590) (a b : Int) : ∃ why : Txt, ¬Utf8 (o.message why a b .alarm) := by
  have key : ∀ (p : Txt) (j : Nat), (enc (o.who ++ p)).length + (2 * j + 1) = 599 →
      ¬Utf8 (o.message (p ++ List.replicate 600 'я') a b .alarm) := by
    intro p j e
    have hj : j < 600 := by omega
    show ¬Utf8 ((enc (o.who ++ (p ++ List.replicate 600 'я') ++ ['.'])).take 599)
    rw [← List.append_assoc o.who p, enc_append, enc_append, enc_ya, List.append_assoc, ← e, List.take_length_add_append, take_ya _ _ hj,
      ← List.append_assoc]
    exact not_utf8 _ _ (by omega)
  by_cases c : (enc o.who).length % 2 = 0
  · exact ⟨_, key [] ((598 - (enc o.who).length) / 2) (by rw [List.append_nil]; omega)⟩
  · refine ⟨_, key [' '] ((597 - (enc o.who).length) / 2) ?_⟩
    rw [enc_append, List.length_append]
    show (enc o.who).length + 1 + _ = _
    omega

example : (enc tank.who).length ≤ 590 := by decide +kernel

/-- **C219** (part). While each message finds fewer than ten others, the object says that it has an alarm exactly while one that was set
is not acknowledged. -/
theorem C219_alarm_partial (h : List Ev) (hn : (numbers h).Nodup) (hc : NotCrowded h) :
    isAnyError (run h) = true ↔ ∃ n k, (n, k) ∈ unacked h ∧ Alarming k := by
  rw [run_unacked h hn hc]
  unfold isAnyError Alarming
  rw [List.any_eq_true]
  constructor
  · rintro ⟨⟨n, k⟩, h1, h2⟩
    refine ⟨n, k, h1, ?_⟩
    have h3 : k.isAlarm = true := h2
    cases k <;> first | (simp; done) | exact absurd h3 (by decide)
  · rintro ⟨n, k, h1, h2⟩
    refine ⟨(n, k), h1, ?_⟩
    rcases h2 with rfl | rfl | rfl <;> rfl

example : NotCrowded [.post 1 .off, .post 2 .alarm, .ack 1] ∧ unacked [.post 1 .off, .post 2 .alarm, .ack 1] = [(2, .alarm)] := by
  refine ⟨fun a n k b e => ?_, by decide⟩
  have l : a.length + (b.length + 1) = 3 := by
    have := congrArg List.length e
    simp only [List.length_cons, List.length_nil, List.length_append] at this
    omega
  have s := (unacked_numbers a).length_le
  have t : ∀ x : List Ev, (numbers x).length ≤ x.length := by
    intro x
    induction x with
    | nil => exact Nat.le_refl _
    | cons y z ih => cases y <;> simp only [numbers, List.length_cons] <;> omega
  have := t a
  rw [List.length_map] at s
  omega

/-- **C219** does not hold when ten answers or messages wait to be acknowledged: no alarm set then, whatever it is, shows, nor is the object said
to have one. -/
theorem C219_alarm_violated (l : List (Nat × Kind)) (hl : l.length = 10) (hk : ∀ e ∈ l, ¬Alarming e.2) (more : List (Nat × Kind)) :
    run ((l ++ more).map fun e => .post e.1 e.2) = l ∧ isAnyError (run ((l ++ more).map fun e => .post e.1 e.2)) = false := by
  have e : run ((l ++ more).map fun e => .post e.1 e.2) = l := by
    unfold run
    rw [List.map_append, List.foldl_append, run_posts l [] (by simp [hl]), List.nil_append]
    exact step_full l hl more
  refine ⟨e, ?_⟩
  rw [e]
  unfold isAnyError
  rw [List.any_eq_false]
  intro x hx
  have := hk x hx
  unfold Alarming at this
  generalize x.2 = k at this
  cases k <;> first | exact fun h => absurd h (by decide) | exact absurd this (by simp)

example : isAnyError (run (((List.range 10).map fun i => Ev.post i .cantOn) ++ [.post 10 .alarm, .post 11 .toFail])) = false := by decide +kernel

end Ptusa.MsgText
