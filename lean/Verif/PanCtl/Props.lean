import Verif.PanCtl.Lemmas

/-!
# C221: the panel sees the state of each washing line and commands it
-/
namespace Ptusa.PanCtl
open Tcp (Byte Buf)

/-- **C221** (part). Whatever registers a panel asks for, those of the step, the state, the temperature of the return and the number of the
station hold the values of their line, and the panel understands the state, if the fault is none of 50, 80, 90 and fits. -/
theorem C221_shown_partial (ls : List Line) (msa : Int) (start n t l : Nat) (ht : t < n) (b : Buf) (L : Line) (hl : ls[l]? = some L) :
    (start + t = 100 * l + 1 → -32768 ≤ L.step → L.step < 32768 → register (read ls msa start n b) t = L.step) ∧
    (start + t = 100 * l + 2 → -32768 < L.state → L.state ≤ 1 → L.state ∉ [-50, -80, -90] →
      panel (register (read ls msa start n b) t) = doing L.state) ∧
    (start + t = 100 * l + 3 → registers (read ls msa start n b) t = L.temp) ∧
    (start + t = 100 * l + 5 → -32768 ≤ msa → msa < 32768 → register (read ls msa start n b) t = msa) := by
  have key : ∀ k, k < 100 → k ≠ 4 → start + t = 100 * l + k →
      ∃ c : Buf, (t + start) / 100 = l ∧ (t + start) % 100 = k ∧
        ∀ j, j < 3 + (t + (readOne ls msa start c t).2) * 2 → read ls msa start n b j = (readOne ls msa start c t).1 j := by
    intro k hk h4 h
    obtain ⟨e1, e2⟩ := idx hk h
    obtain ⟨c, hc⟩ := read_at ls msa start n t ht (by rw [e2]; exact h4) b
    exact ⟨c, e1, e2, hc⟩
  refine ⟨fun h h1 h2 => ?_, fun h h1 h2 h3 => ?_, fun h => ?_, fun h h1 h2 => ?_⟩
  · obtain ⟨c, e1, e2, hc⟩ := key 1 (by omega) (by omega) h
    have e : readOne ls msa start c t = (Tcp.put c (3 + t * 2) (Modbus.packInt16 (BitVec.ofInt 16 L.step)), 1) := by
      unfold readOne
      simp only [e1, e2, hl]
    rw [e] at hc
    rw [register_congr hc, pack_word, ofInt_toInt h1 h2]
  · obtain ⟨c, e1, e2, hc⟩ := key 2 (by omega) (by omega) h
    have e : readOne ls msa start c t = (Tcp.put c (3 + t * 2) (Modbus.packInt16 (BitVec.ofInt 16 (shown L.state))), 1) := by
      unfold readOne
      simp only [e1, e2, hl]
    rw [e] at hc
    have hb : -32768 ≤ shown L.state ∧ shown L.state < 32768 := by
      unfold shown
      split
      · split
        · omega
        · split
          · omega
          · split <;> omega
      · omega
    rw [register_congr hc, pack_word, ofInt_toInt hb.1 hb.2]
    simp only [List.mem_cons, List.not_mem_nil, or_false, not_or] at h3
    unfold shown
    by_cases c0 : L.state < 0
    · rw [if_pos c0]
      by_cases c1 : L.state = -2
      · rw [if_pos c1, c1]; decide
      rw [if_neg c1]
      by_cases c2 : L.state = -1000
      · rw [if_pos c2, c2]; decide
      rw [if_neg c2]
      by_cases c3 : L.state = -1
      · rw [if_pos c3, c3]; decide
      rw [if_neg c3]
      unfold panel doing
      rw [if_neg (by omega), if_neg (by omega), if_neg (by omega), if_neg (by omega), if_neg (by omega), if_neg c3, if_neg c2, if_pos c0,
        Int.natAbs_neg]
    · rw [if_neg c0]
      have : L.state = 0 ∨ L.state = 1 := by omega
      rcases this with h | h <;> rw [h] <;> decide
  · obtain ⟨c, e1, e2, hc⟩ := key 3 (by omega) (by omega) h
    have e : readOne ls msa start c t = (Tcp.put c (3 + t * 2) (Modbus.packFloat L.temp), 2) := by
      unfold readOne
      simp only [e1, e2, hl]
    rw [e] at hc
    rw [registers_congr hc, pack_float]
  · obtain ⟨c, e1, e2, hc⟩ := key 5 (by omega) (by omega) h
    have e : readOne ls msa start c t = (Tcp.put c (3 + t * 2) (Modbus.packInt16 (BitVec.ofInt 16 msa)), 1) := by
      unfold readOne
      simp only [e1, e2, hl]
    rw [e] at hc
    rw [register_congr hc, pack_word, ofInt_toInt h1 h2]

/-- Line 2 is in step 7, with no return: 100 registers from 0 on do not reach it, six from 100 on do. -/
example : let b := read [{}, { state := -12, step := 7, temp := 0x42A00000 }] 3 100 6 (fun _ => 0)
    (register b 1, panel (register b 2), registers b 3, register b 5) = (7, .fault 12, 0x42A00000, 3) := by decide +kernel

/-- **C221**. The panel can tell apart all the states that the program itself gives to a line, and understands each of them. -/
theorem C221_own_states (s r : Int) (hs : s ∈ ownStates) (hr : r ∈ ownStates) :
    panel (shown s) = doing s ∧ (shown s = shown r → s = r) := by
  revert r
  revert s
  decide +kernel

example : (-12 : Int) ∈ ownStates ∧ shown (-12) = 12 ∧ shown (-1) = 50 := by decide

/-- **C221** does not hold: a fault number 50 of a project (given by its own `cip_DoStep`) is shown as a pause, 80 as another fault and 90 as a block. -/
theorem C221_fault_violated (L : Line) :
    panel (shown (L.fault (-50)).state) = .paused ∧ doing (L.fault (-50)).state = .fault 50 ∧
    panel (shown (L.fault (-80)).state) = .fault 2 ∧ doing (L.fault (-80)).state = .fault 80 ∧
    panel (shown (L.fault (-90)).state) = .blocked ∧ doing (L.fault (-90)).state = .fault 90 := by
  have h : ∀ r : Int, r < 0 → (L.fault r).state = r := fun r hr => by
    unfold Line.fault
    rw [if_pos hr]
  rw [h _ (by omega), h _ (by omega), h _ (by omega)]
  decide

example : (({ state := 1, step := 7 } : Line).fault (-50)).state = -50 := by decide

/-- A row of requests that write registers. -/
def writes (ls : List Line) (qs : List (Nat × List (BitVec 16))) : Option (List Line) :=
  qs.foldl (fun o q => o.bind fun ls => write ls q.1 q.2) (some ls)

/-- **C221** (part). Requests that name existing lines are carried out: each line has the command that was written to it last, the others keep theirs,
and nothing else changes. -/
theorem C221_command_partial (ls : List Line) (qs : List (Nat × List (BitVec 16)))
    (h : ∀ q ∈ qs, ∀ k, k < q.2.length → (q.1 + k) % 100 = 0 → (q.1 + k) / 100 < ls.length) :
    ∃ ls', writes ls qs = some ls' ∧ ls'.length = ls.length ∧
      ∀ (l : Nat) (L : Line), ls[l]? = some L → ls'[l]? = some { L with cmd := match lastWritten (100 * l) qs with | some v => v.toInt | none => L.cmd } := by
  induction qs generalizing ls with
  | nil => exact ⟨ls, rfl, rfl, fun l L hl => hl⟩
  | cons q qs ih =>
    obtain ⟨l1, e1, n1, g1⟩ := write_some q.2 ls q.1 (h q (List.mem_cons_self ..))
    obtain ⟨l2, e2, n2, g2⟩ := ih l1 (fun p hp k hk c => by rw [n1]; exact h p (List.mem_cons_of_mem _ hp) k hk c)
    refine ⟨l2, ?_, by rw [n2, n1], fun l L hl => ?_⟩
    · show qs.foldl _ ((some ls).bind fun ls => write ls q.1 q.2) = _
      show qs.foldl _ (write ls q.1 q.2) = _
      rw [e1]
      exact e2
    · have e3 := g1 l
      rw [hl] at e3
      rw [g2 l _ e3]
      show some _ = some _
      congr 1
      rw [lastWritten]
      unfold here
      cases lastWritten (100 * l) qs with
      | some v =>
        show ({ given L (if q.1 ≤ 100 * l then q.2[100 * l - q.1]? else none) with cmd := v.toInt } : Line) = _
        cases (if q.1 ≤ 100 * l then q.2[100 * l - q.1]? else none) <;> rfl
      | none =>
        show ({ given L (if q.1 ≤ 100 * l then q.2[100 * l - q.1]? else none) with
          cmd := (given L (if q.1 ≤ 100 * l then q.2[100 * l - q.1]? else none)).cmd } : Line) = _
        show _ = ({ L with cmd := match (if q.1 ≤ 100 * l then q.2[100 * l - q.1]? else none) with | some v => v.toInt | none => L.cmd } : Line)
        cases (if q.1 ≤ 100 * l then q.2[100 * l - q.1]? else none) <;> rfl

example : (writes [{}, { state := 1 }] [(100, [2]), (0, [3])]).map (·.map Line.cmd) = some [3, 2] := by decide +kernel

/-- **C221** does not hold: a command that the line has not yet looked at is lost when the next one comes. -/
theorem C221_lost_violated (L : Line) (v w : BitVec 16) : (writes [L] [(0, [v]), (0, [w])]) = writes [L] [(0, [w])] := by
  obtain ⟨a, e1, n1, g1⟩ := C221_command_partial [L] [(0, [v]), (0, [w])] (by simp)
  obtain ⟨b, e2, n2, g2⟩ := C221_command_partial [L] [(0, [w])] (by simp)
  rw [e1, e2]
  congr 1
  apply List.ext_getElem?
  intro i
  cases i with
  | zero => rw [g1 0 L rfl, g2 0 L rfl]; rfl
  | succ i =>
    rw [List.getElem?_eq_none (by rw [n1]; simp), List.getElem?_eq_none (by rw [n2]; simp)]

/-- **C221** does not hold: a command for a line that does not exist is written behind the list of lines. -/
theorem C221_command_violated (ls : List Line) (l : Nat) (hl : ls.length ≤ l) (v : BitVec 16) : writes ls [(100 * l, [v])] = none := by
  show (writeOne ls (100 * l) v).bind _ = none
  unfold writeOne
  rw [if_pos (by omega), show 100 * l / 100 = l by omega, List.getElem?_eq_none hl]
  rfl

/-- Reset, then the next step, within one pass: the wash goes on with the next step. -/
example : (writes [{ state := 1 }] [(0, [4]), (0, [1])]).map (·.map Line.cmd) = some [1] := by decide +kernel

end Ptusa.PanCtl
