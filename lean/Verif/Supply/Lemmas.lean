import Verif.Supply.Spec
import Mathlib.Data.List.Induction

/-!
# Lemmas
-/
namespace Ptusa.Supply

theorem f_run_append (s : F) (a b : List FEv) : s.run (a ++ b) = (s.run a).run b := by
  unfold F.run
  rw [List.foldl_append]

theorem g_run_append (s : G) (a b : List GEv) : s.run (a ++ b) = (s.run a).run b := by
  unfold G.run
  rw [List.foldl_append]

/-- While the link is good only commands change the switches. -/
theorem f_good (h : List FEv) : ∀ (s : F), s.readOk = true → FGood h →
    (s.run h).out.sw = fSwitched s.out.sw h ∧ (s.run h).readOk = true := by
  induction h with
  | nil => intro s h _; exact ⟨rfl, h⟩
  | cons e h ih =>
    intro s hs hg
    have hg' : FGood h := fun m ok hm => hg m ok (by simp [hm])
    cases e with
    | eval m ok =>
      have hok : ok = true := hg m ok (by simp)
      subst hok
      have e1 : (s.eval m true).out = s.out ∧ (s.eval m true).readOk = true := by
        simp only [F.eval, hs, if_true]
        exact ⟨trivial, trivial⟩
      have := ih (s.eval m true) e1.2 hg'
      rw [e1.1] at this
      exact this
    | all b => exact ih (s.all b) hs hg'
    | channel n b => exact ih (s.channel n b) hs hg'

theorem f_valid (h : List FEv) : ∀ s : F, FNoAll h → (s.run h).out.valid = s.out.valid := by
  induction h with
  | nil => intro s _; rfl
  | cons e h ih =>
    intro s hn
    have hn' : FNoAll h := fun b hb => hn b (by simp [hb])
    show ((s.step e).run h).out.valid = _
    rw [ih _ hn']
    cases e with
    | eval m ok =>
      simp only [F.step, F.eval]
      split <;> [split; skip] <;> rfl
    | all b => exact absurd (by simp) (hn b)
    | channel n b => rfl

theorem eval_t (s : G) (now : BitVec 64) (m : Img) (ok : Bool) : (s.eval now m ok).t = s.t := by
  by_cases hb : s.busy = true <;> by_cases h3 : 300 < Time.deltaMs now s.t <;>
    by_cases h4 : 1000 < Time.deltaMs now s.t <;> cases ok <;>
    simp only [G.eval, hb, h3, h4, if_true, if_false, Bool.false_eq_true]

/-- Invariant: a unit that is busy has its last command's time. -/
theorem g_time (h : List GEv) : (G.init.run h).busy = true → lastCmd h = some (G.init.run h).t := by
  induction h using List.reverseRecOn with
  | nil => intro h; exact absurd h (by decide)
  | append_singleton h e ih =>
    rw [g_run_append]
    cases e with
    | cmd now c =>
      intro _
      have : lastCmd (h ++ [.cmd now c]) = some now := by simp [lastCmd]
      rw [this]
      show some now = some (G.cmd _ now c).t
      unfold G.cmd
      dsimp only
      split <;> rfl
    | eval now m ok =>
      have hl : lastCmd (h ++ [.eval now m ok]) = lastCmd h := by simp [lastCmd]
      rw [hl]
      intro hb
      have hb : ((G.init.run h).eval now m ok).busy = true := hb
      show lastCmd h = some ((G.init.run h).eval now m ok).t
      have h1 : (G.init.run h).busy = true := by
        by_contra hc
        rw [Bool.not_eq_true] at hc
        simp only [G.eval, hc] at hb
        revert hb
        cases ok <;> simp [hc]
      rw [ih h1, eval_t]

/-- After a quiet cycle the unit is not busy and the output repeats the input. -/
theorem g_quiet (h : List GEv) (now : BitVec 64) (m : Img) (hq : Quiet h now) :
    let s := G.init.run (h ++ [.eval now m true])
    s.busy = false ∧ s.out = .sync (GIn.of m) ∧ s.at' = true := by
  intro s
  have hs : s = (G.init.run h).eval now m true := by
    show G.init.run _ = _
    rw [g_run_append]
    rfl
  rw [hs]
  cases hb : (G.init.run h).busy with
  | false =>
    simp only [G.eval, hb, if_true, Bool.false_eq_true, if_false]
    exact ⟨trivial, trivial, trivial⟩
  | true =>
    have := hq _ (g_time h hb)
    simp only [G.eval, hb, if_true, this]
    split <;> exact ⟨rfl, rfl, rfl⟩

/-- Cycles within a second after a command at `t0` keep the switches. -/
theorem g_wait (es : List GEv) : ∀ s : G, s.at' = true → s.busy = true →
    (∀ e ∈ es, ∃ now m ok, e = .eval now m ok ∧ ¬ 1000 < Time.deltaMs now s.t) →
    (s.run es).busy = true ∧ (s.run es).t = s.t ∧ (s.run es).at' = true ∧
      (s.run es).out.sw = s.out.sw ∧ (s.run es).out.cur = s.out.cur := by
  induction es with
  | nil => intro s h1 h2 _; exact ⟨h2, rfl, h1, rfl, rfl⟩
  | cons e es ih =>
    intro s h1 h2 he
    obtain ⟨now, m, ok, rfl, hd⟩ := he e (by simp)
    have key : (s.eval now m ok).busy = true ∧ (s.eval now m ok).t = s.t ∧ (s.eval now m ok).at' = true ∧
        (s.eval now m ok).out.sw = s.out.sw ∧ (s.eval now m ok).out.cur = s.out.cur := by
      simp only [G.eval, h2, if_true]
      cases ok
      · simp only [Bool.false_eq_true, if_false]
        exact ⟨trivial, trivial, trivial, trivial, trivial⟩
      · simp only [if_true]
        split
        · next h3 => simp only [hd, if_false]; exact ⟨trivial, trivial, trivial, trivial, trivial⟩
        · next h3 => simp only [hd, if_false]; exact ⟨trivial, trivial, trivial, trivial, trivial⟩
    obtain ⟨k1, k2, k3, k4, k5⟩ := key
    have := ih (s.eval now m ok) k3 k1 (by
      intro e' he'
      obtain ⟨n, m', ok', e1, e2⟩ := he e' (by simp [he'])
      exact ⟨n, m', ok', e1, by rw [k2]; exact e2⟩)
    rw [k2, k4, k5] at this
    exact this

/-- The same when no cycle with a good link comes later than 300 ms: the flag is kept. -/
theorem g_unsent (es : List GEv) : ∀ s : G, s.busy = true →
    (∀ e ∈ es, ∃ now m ok, e = .eval now m ok ∧ (ok = true → ¬ 300 < Time.deltaMs now s.t)) →
    (s.run es).busy = true ∧ (s.run es).t = s.t ∧ (s.run es).out = s.out := by
  induction es with
  | nil => intro s h2 _; exact ⟨h2, rfl, rfl⟩
  | cons e es ih =>
    intro s h2 he
    obtain ⟨now, m, ok, rfl, hd⟩ := he e (by simp)
    have key : (s.eval now m ok).busy = true ∧ (s.eval now m ok).t = s.t ∧ (s.eval now m ok).out = s.out := by
      simp only [G.eval, h2, if_true]
      cases ok
      · simp only [Bool.false_eq_true, if_false]
        exact ⟨trivial, trivial, trivial⟩
      · have h3 := hd rfl
        have h4 : ¬ 1000 < Time.deltaMs now s.t := by
          intro hc
          apply h3
          rw [BitVec.lt_def] at hc ⊢
          have e1 : (1000 : BitVec 64).toNat = 1000 := rfl
          have e2 : (300 : BitVec 64).toNat = 300 := rfl
          omega
        simp only [if_true, h3, h4, if_false]
        exact ⟨trivial, trivial, trivial⟩
    obtain ⟨k1, k2, k3⟩ := key
    have := ih (s.eval now m ok) k1 (by
      intro e' he'
      obtain ⟨n, m', ok', e1, e2⟩ := he e' (by simp [he'])
      exact ⟨n, m', ok', e1, by rw [k2]; exact e2⟩)
    rw [k2, k3] at this
    exact this

/-- Bits of a byte. -/
theorem extract_toNat (b : Byte) (k n : Nat) : (b.extractLsb' k n).toNat = b.toNat / 2 ^ k % 2 ^ n := by
  rw [BitVec.extractLsb'_toNat, Nat.shiftRight_eq_div_pow]

/-- The output of a synchronised unit after a command. -/
theorem sync_apply (m : Img) (c : GCmd) (hc : c.ok) :
    ((GOut.sync (GIn.of m)).apply c).sw = (wanted m c).1 ∧
    (fun i => (((GOut.sync (GIn.of m)).apply c).cur i).toNat) = (wanted m c).2 := by
  have hs : (fun k => (GIn.of m).status k != 0) =
      fun i : Fin 8 => (m (4 + i.val / 4)).toNat / 4 ^ (3 - i.val % 4) % 4 != 0 := by
    funext i
    have e : (GIn.of m).status i = (m (4 + i.val / 4)).extractLsb' (6 - 2 * (i.val % 4)) 2 := rfl
    have p : (4 : Nat) ^ (3 - i.val % 4) = 2 ^ (6 - 2 * (i.val % 4)) := by
      rw [show (4 : Nat) = 2 ^ 2 by rfl, ← Nat.pow_mul]
      congr 1
      omega
    rw [Bool.eq_iff_iff, e, p]
    simp only [bne_iff_ne, ne_eq]
    rw [← BitVec.toNat_inj, extract_toNat]
    rfl
  have hcur : (fun i => ((GIn.of m).cur i).toNat) =
      fun i : Fin 8 => (m (6 + i.val / 2)).toNat / (if i.val % 2 = 0 then 8 else 1) % 8 := by
    funext i
    have e : (GIn.of m).cur i = (m (6 + i.val / 2)).extractLsb' (if i.val % 2 = 0 then 3 else 0) 3 := rfl
    rw [e, extract_toNat]
    split <;> rfl
  cases c with
  | all b => exact ⟨rfl, hcur⟩
  | channel n b =>
    refine ⟨?_, hcur⟩
    funext i
    have := congrFun hs i
    show (if _ then b else (GIn.of m).status i != 0) = _
    rw [this]
    rfl
  | current n val =>
    refine ⟨hs, ?_⟩
    funext i
    have := congrFun hcur i
    show (if i.val + 1 = n then BitVec.ofInt 3 val else (GIn.of m).cur i).toNat = _
    show _ = if i.val + 1 = n then val.toNat else _
    split
    · have h1 : 0 ≤ val ∧ val < 8 := hc
      rw [BitVec.toNat_ofInt]
      congr 1
      omega
    · exact this

end Ptusa.Supply
