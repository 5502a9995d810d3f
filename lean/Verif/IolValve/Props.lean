import Verif.IolValve.Lemmas

/-!
# C113, C114: IO-Link valves with one control head

`start k img stub pos flags t ok` is a valve when the program starts, whatever is in the output image and, for a ThinkTop, in the
data which are not initialised.
-/
namespace Ptusa.IolValve

open Ptusa.Valve (Tm isError)

/-! ## C113: the commands reach the head, its report is shown -/

/-- C113, ThinkTop and SORIO.  After any history, a cycle with the data of the head shows its position in percent, open only if
it reports open and not closed, and its error. -/
theorem C113_shows (k : Kind) (hk : k = .thinktop ∨ k = .sorio) (v u : V) (es : List Ev) (h : v.run k es = some u) (r : Report)
    (ao ok : Bool) : ∃ w, v.run k (es ++ [.cycle ao (some (r.data k)) ok]) = some w ∧ w.value = (r.pos.toInt : Rat) / 10 ∧
      w.state k = (if r.opened && !r.closed then 1 else 0) ∧ w.err k = r.faulty k := by
  rcases hk with rfl | rfl
  · refine ⟨_, by simp only [run_append, h, V.run, V.step, V.cycle, Option.bind_some]; rfl, ?_⟩
    obtain ⟨f0, f1, -, f3⟩ := thinktop_flags r { u with
      ptr := if ao then .image else .null, ioOk := ok, pos := (Kind.decode .thinktop r.thinktop).1,
      flags := (Kind.decode .thinktop r.thinktop).2 } rfl
    refine ⟨?_, ?_, f3⟩
    · simp only [V.value, Kind.decode, Report.data, Report.thinktop, high_low]
    · change (if _ then (0 : Int) else if _ then 1 else 0) = _
      erw [f0, f1]
      cases r.closed <;> cases r.opened <;> rfl
  · refine ⟨_, by simp only [run_append, h, V.run, V.step, V.cycle, Option.bind_some]; rfl, ?_⟩
    obtain ⟨f0, f1, -, f3⟩ := sorio_flags r { u with
      ptr := if ao then .image else .null, ioOk := ok, pos := (Kind.decode .sorio r.sorio).1,
      flags := (Kind.decode .sorio r.sorio).2 } rfl
    refine ⟨?_, ?_, f3⟩
    · simp only [V.value, Kind.decode, Report.data, Report.sorio, high_low]
    · change (if _ then (0 : Int) else if _ then 1 else 0) = _
      erw [f0, f1]
      cases r.closed <;> cases r.opened <;> rfl

-- A SORIO at 99.9 %, open.
example : ((start .sorio 0 0 0 0 0 true).run .sorio [.cycle true (some (0x03, 0xE7, 0x01, 0x02)) true]).map
    (fun w => (w.value, w.state .sorio, w.err .sorio)) = some (999 / 10, 1, false) := by decide +kernel

/-- C113, T.VIS.  After any history in which the output is linked, a cycle with the data of the head shows its position in
millimetres, the pilots which are on, and its error. -/
theorem C113_tvis_shows (k : Kind) (hk : k = .tvisSs ∨ k = .tvisDs) (v u : V) (es : List Ev) (h : v.run k es = some u) (r : Tvis)
    (ok : Bool) : ∃ w, v.run k (es ++ [.cycle true (some r.data) ok]) = some w ∧ w.value = (r.pos.toNat : Rat) / 10 ∧
      w.state k = (if k = .tvisSs then (if r.y1 then 1 else 0)
        else if (r.y1, r.y2, r.y3) = (true, false, false) then 1
        else if (r.y1, r.y2, r.y3) = (false, false, true) then 2
        else if (r.y1, r.y2, r.y3) = (false, true, false) then 3 else 0) ∧ w.err k = r.err := by
  refine ⟨_, by simp only [run_append, h, V.run, cycle_linked, Option.bind_some]; rfl, ?_⟩
  obtain ⟨-, -, -, -, f8, f9, f10, f11⟩ := tvis_flags k hk r { u with
    ptr := .image, ioOk := ok, pos := (k.decode r.data).1, flags := (k.decode r.data).2 } rfl
  refine ⟨?_, ?_, ?_⟩
  · simp only [V.value, tvis_pos k hk]
    rw [Int.cast_natCast]
  · rcases hk with rfl | rfl
    · simp only [V.state, if_true]
      erw [f8]
    · simp only [V.state, f8, f9, f10]
      cases r.y1 <;> cases r.y2 <;> cases r.y3 <;> rfl
  · rcases hk with rfl | rfl <;> exact f11

-- A double seat valve at 12.3 mm with the lower seat pushed.
example : ((start .tvisDs 0 0 0 0 0 true).run .tvisDs [.cycle true (some (0x08, 0x02, 0x00, 0x7B)) true]).map
    (fun w => (w.value, w.state .tvisDs, w.err .tvisDs)) = some (123 / 10, 3, false) := by decide +kernel

/-- C113.  Once the channels are linked in a first cycle, no history of cycles and commands uses a null pointer, and after it
the solenoids in the output image are those which the last command asked for; the bits of other devices are as they were. -/
theorem C113_output (k : Kind) (img stub : Byte) (pos flags : BitVec 16) (t : Tm) (ok0 : Bool) (d : Data) (ok : Bool) (es : List Ev)
    (he : ∀ e ∈ es, e.linked = true) : ∃ w,
      (start k img stub pos flags t ok0).run k (.cycle true (some d) ok :: es) = some w ∧
      solenoids k w.img = asked k (solenoids k img) es ∧
      ∀ i < 8, (k.mask ||| k.wink).getLsbD i = false → w.img.getLsbD i = img.getLsbD i := by
  obtain ⟨w, h1, -, h3, h4⟩ := run_linked k es he { start k img stub pos flags t ok0 with
    ioOk := ok, ptr := .image, pos := (k.decode d).1, flags := (k.decode d).2 } rfl
  refine ⟨w, by simp only [V.run, cycle_linked, Option.bind_some]; exact h1, h3, ?_⟩
  intro i hi hm
  have := congrArg (fun x : Byte => x.getLsbD i) h4
  change (w.img &&& ~~~ own k).getLsbD i = (img &&& ~~~ own k).getLsbD i at this
  have hm' : (own k).getLsbD i = false := hm
  simp only [BitVec.getLsbD_and, BitVec.getLsbD_not, hm', hi, decide_true, Bool.true_and, Bool.not_false, Bool.and_true] at this
  exact this

-- A double seat valve told to open, to push the lower seat, to lift the upper one; the other bits stay.
example : ((start .tvisDs 0xA8 0 0 0 0 true).run .tvisDs
    [.cycle true (some (0, 0, 0, 0)) true, .on 1, .set 2 3, .cycle true (some (0, 0, 0, 0)) true, .set 3 2]).map V.img =
      some 0xAC := by decide +kernel

/-- C113 fails for T.VIS: any command before the first cycle of input and output uses a null pointer. -/
theorem C113_early_violated (k : Kind) (hk : k = .tvisSs ∨ k = .tvisDs) (img stub : Byte) (pos flags : BitVec 16) (t : Tm) (ok0 : Bool)
    (c : Ev) (hc : c.drives = true) (es : List Ev) : (start k img stub pos flags t ok0).run k (c :: es) = none := by
  have ho : (start k img stub pos flags t ok0).out = none := by rcases hk with rfl | rfl <;> rfl
  have hon : ∀ t', (start k img stub pos flags t ok0).on k t' = none := fun t' => by simp only [V.on, ho]
  have hoff : ∀ t', (start k img stub pos flags t ok0).off k t' = none := fun t' => by simp only [V.off, ho]
  cases c with
  | on t' => simp [V.run, V.step, hon]
  | off t' => simp [V.run, V.step, hoff]
  | set t' n =>
    have : (start k img stub pos flags t ok0).step k (.set t' n) = none := by
      simp only [V.step, V.set, hon, hoff]
      repeat' split
      all_goals rfl
    simp [V.run, this]
  | cycle _ _ _ => simp [Ev.drives] at hc
  | wink _ => simp [Ev.drives] at hc

example : (start .tvisSs 0 0 0 0 0 true).run .tvisSs [.off 1] = none := by decide +kernel

/-- C113 fails for ThinkTop and SORIO: what they are told before the first cycle is lost.  The output image is not touched, and
the first cycle does not transfer it. -/
theorem C113_lost_violated (k : Kind) (hk : k = .thinktop ∨ k = .sorio) (img stub : Byte) (pos flags : BitVec 16) (t : Tm) (ok0 : Bool)
    (es : List Ev) (he : ∀ e ∈ es, ∀ ao ai ok, e ≠ .cycle ao ai ok) (d : Data) (ok : Bool) : ∃ w,
      (start k img stub pos flags t ok0).run k (es ++ [.cycle true (some d) ok]) = some w ∧ w.img = img ∧ w.ptr = .image := by
  have key : ∀ v : V, v.ptr = .stub → ∃ w, v.run k es = some w ∧ w.img = v.img := by
    induction es with
    | nil => exact fun v _ => ⟨v, rfl, rfl⟩
    | cons e es ih =>
      intro v hv
      have ho : v.out = some v.stub := by simp [V.out, hv]
      have hon : ∀ t, ∃ w, v.on k t = some w ∧ w.ptr = .stub ∧ w.img = v.img := by
        intro t
        refine ⟨_, by simp only [V.on, ho]; rfl, ?_⟩
        split <;> simp [V.write, hv]
      have hoff : ∀ t, ∃ w, v.off k t = some w ∧ w.ptr = .stub ∧ w.img = v.img := by
        intro t
        refine ⟨_, by simp only [V.off, ho]; rfl, ?_⟩
        split <;> simp [V.write, hv]
      have hs : ∃ w, v.step k e = some w ∧ w.ptr = .stub ∧ w.img = v.img := by
        cases e with
        | on t => exact hon t
        | off t => exact hoff t
        | set t n =>
          have h2 : ¬ (k = .tvisDs ∧ n = 2) := by rcases hk with rfl | rfl <;> simp
          have h3 : ¬ (k = .tvisDs ∧ n = 3) := by rcases hk with rfl | rfl <;> simp
          simp only [V.step, V.set, if_neg h2, if_neg h3]
          repeat' split
          · exact hoff t
          · exact hon t
          · exact hon t
        | wink b => rcases hk with rfl | rfl <;> simp [V.step, V.wink, ho, V.write, hv]
        | cycle ao ai ok => exact absurd rfl (he _ (by simp) ao ai ok)
      obtain ⟨u, h1, h2, h3⟩ := hs
      obtain ⟨w, g1, g2⟩ := ih (fun x hx => he x (by simp [hx])) u h2
      exact ⟨w, by simp [V.run, h1, g1], by rw [g2, h3]⟩
  obtain ⟨w, h1, h2⟩ := key (start k img stub pos flags t ok0) (by rcases hk with rfl | rfl <;> rfl)
  refine ⟨{ w with ioOk := ok, ptr := .image, pos := (k.decode d).1, flags := (k.decode d).2 }, ?_, h2, rfl⟩
  simp only [run_append, h1, V.run, cycle_linked, Option.bind_some]

-- A SORIO told to open before the first cycle stays closed.
example : ((start .sorio 0 0 0 0 0 true).run .sorio [.on 1, .cycle true (some (0, 0, 0, 1)) true]).map V.img = some 0 := by
  decide +kernel

/-- C113 fails for ThinkTop and SORIO: after a cycle in which the output channel is missing, the next command uses a null
pointer, whatever has happened before. -/
theorem C113_unlinked_violated (k : Kind) (hk : k = .thinktop ∨ k = .sorio) (v : V) (es fs : List Ev) (ai : Option Data) (ok : Bool)
    (c : Ev) (hc : c.drives = true) : v.run k (es ++ .cycle false ai ok :: c :: fs) = none := by
  rw [run_append]
  cases hu : v.run k es with
  | none => rfl
  | some u =>
    obtain ⟨w, h1, h2⟩ : ∃ w, u.step k (.cycle false ai ok) = some w ∧ w.out = none := by
      rcases hk with rfl | rfl <;> cases ai <;> exact ⟨_, rfl, rfl⟩
    have h3 : w.step k c = none := by
      have hon : ∀ t', w.on k t' = none := fun t' => by simp only [V.on, h2]
      have hoff : ∀ t', w.off k t' = none := fun t' => by simp only [V.off, h2]
      cases c with
      | on t' => exact hon t'
      | off t' => exact hoff t'
      | set t' n =>
        simp only [V.step, V.set, hon, hoff]
        repeat' split
        all_goals rfl
      | cycle _ _ _ => simp [Ev.drives] at hc
      | wink _ => simp [Ev.drives] at hc
    simp [V.run, h1, h3]

example : (start .thinktop 0 0 0 0 0 true).run .thinktop
    [.cycle true (some (0, 0, 0, 1)) true, .on 1, .cycle false none true, .off 2] = none := by decide +kernel

/-! ## C114: a valve which is stuck is reported -/

/-- C114, ThinkTop and SORIO.  A valve told once to open when its head does not report open (`o`), or told to close when it was
told to open before, shows, when more than `P_ON_TIME` has passed and no other command came, an error exactly if it is not in
order in the position it was told. -/
theorem C114_reported_partial (k : Kind) (hk : k = .thinktop ∨ k = .sorio) (img stub : Byte) (pos flags : BitVec 16) (ts : Tm)
    (ok0 k0 k1 ok : Bool) (d0 : Data) (es rest : List Ev) (he : ∀ e ∈ es, e.linked = true)
    (hr : ∀ e ∈ rest, e.linked = true ∧ e.drives = false) (r1 r : Report) (o : Bool) (t0 t : Tm)
    (ho : if o then r1.opened = false else asked k (solenoids k img) es = (true, false, false))
    (q : Rat) (h0 : 0 ≤ q) (h1 : q < 2 ^ 24) (pFb : Fl) (hf : pFb.eq (.num 0) = false) (m : Bool) (ht : t0 ≤ t)
    (hlate : q < ((t.toNat - t0.toNat : Nat) : Rat)) : ∃ w,
      (start k img stub pos flags ts ok0).run k (.cycle true (some d0) k0 :: es ++ .cycle true (some (r1.data k)) k1 ::
        (if o then .on t0 else .off t0) :: rest ++ [.cycle true (some (r.data k)) ok]) = some w ∧
      ∃ n, w.shown k t (.num q) pFb m = some n ∧ isError n = !r.fits k o ok := by
  obtain ⟨w, hw, w1, w2, w3, w4, w5⟩ := history k (start k img stub pos flags ts ok0) d0 (r1.data k) (r.data k) k0 k1 ok es rest he hr
    (if o then .on t0 else .off t0) t0 (by
      cases o with
      | true =>
        refine Or.inr ⟨rfl, fun u hu => ?_⟩
        have ho' : r1.opened = false := ho
        rcases hk with rfl | rfl
        · exact (thinktop_flags r1 u hu).2.1.trans ho'
        · exact (sorio_flags r1 u hu).2.1.trans ho'
      | false =>
        refine Or.inl ⟨rfl, ?_⟩
        have ho' : asked k (solenoids k img) es = (true, false, false) := ho
        change asked k (solenoids k img) es ≠ _
        rw [ho']; simp)
  refine ⟨w, hw, shown_late k w q h0 h1 pFb hf t m (by rw [w1]; exact ht) (by rw [w1]; exact hlate) ?_ ?_ _ ?_⟩
  · rcases hk with rfl | rfl <;> simp only [V.state] <;> repeat' split
    all_goals simp
  · rcases hk with rfl | rfl <;> simp only [V.state] <;> repeat' split
    all_goals simp
  · intro hin
    have hout : w.out = some w.img := by simp [V.out, w4]
    have hm : decide (w.img &&& k.main ≠ 0) = o := by
      have h6 : (solenoids k w.img).1 = o := by
        cases o
        · have : some (solenoids k w.img) = some (false, false, false) := w5
          rw [Option.some.inj this]
        · have : some (solenoids k w.img) = some (true, false, false) := w5
          rw [Option.some.inj this]
      have := sol_main k w.img
      rw [h6] at this
      cases o
      · simp only [decide_eq_false_iff_not]
        intro hh
        exact absurd (this.mp hh) (by simp)
      · simp only [decide_eq_true_eq]
        exact this.mpr rfl
    rcases hk with rfl | rfl
    · obtain ⟨f0, f1, f4, fe⟩ := thinktop_flags r w w2
      simp only [V.fb, w3, fe, hin, hout, V.confirms, Option.map_some, f0, f1, f4, hm, Report.fits]
      cases ok <;> cases r.faulty .thinktop <;> cases o <;> cases r.closed <;> cases r.opened <;> cases r.settled <;> rfl
    · obtain ⟨f0, f1, -, fe⟩ := sorio_flags r w w2
      simp only [V.fb, w3, fe, hin, hout, V.confirms, Option.map_some, f0, f1, hm, Report.fits]
      cases ok <;> cases r.faulty .sorio <;> cases o <;> cases r.closed <;> cases r.opened <;> rfl

-- A ThinkTop told to open at 1 s, `P_ON_TIME` 3 s, reports closed at 5 s: an error; open: none.
example : ((start .thinktop 0 0 0 0 0 true).run .thinktop [.cycle true (some (0, 0, 0, 0x11)) true, .cycle true (some (0, 0, 0, 0x11)) true,
    .on 1000, .cycle true (some (0, 0, 0, 0x11)) true]).bind (fun w => w.shown .thinktop 5000 (.num 3000) (.num 1) false) = some (-3) ∧
  ((start .thinktop 0 0 0 0 0 true).run .thinktop [.cycle true (some (0, 0, 0, 0x11)) true, .cycle true (some (0, 0, 0, 0x11)) true,
    .on 1000, .cycle true (some (0, 0, 0, 0x12)) true]).bind (fun w => w.shown .thinktop 5000 (.num 3000) (.num 1) false) = some 1 := by
  decide +kernel

/-- C114, T.VIS.  After a command which starts the time, more than `P_ON_TIME` later and without another command, a valve
without a lifted seat shows an error exactly if its head is not in order in the position which belongs to the pilots it reports
on.  The command itself plays no part: see `C114_ignored_violated`. -/
theorem C114_tvis_reported_partial (k : Kind) (hk : k = .tvisSs ∨ k = .tvisDs) (img stub : Byte) (pos flags : BitVec 16) (ts : Tm)
    (ok0 k0 k1 ok : Bool) (d0 : Data) (es rest : List Ev) (he : ∀ e ∈ es, e.linked = true)
    (hr : ∀ e ∈ rest, e.linked = true ∧ e.drives = false) (r1 r : Tvis) (o : Bool) (t0 t : Tm)
    (ho : if o then (r1.y1 && r1.y2 && r1.y3) = false else asked k (solenoids k img) es ≠ (false, false, false))
    (hseat : k = .tvisDs → (r.y1, r.y2, r.y3) ≠ (false, true, false) ∧ (r.y1, r.y2, r.y3) ≠ (false, false, true))
    (q : Rat) (h0 : 0 ≤ q) (h1 : q < 2 ^ 24) (pFb : Fl) (hf : pFb.eq (.num 0) = false) (m : Bool) (ht : t0 ≤ t)
    (hlate : q < ((t.toNat - t0.toNat : Nat) : Rat)) : ∃ w,
      (start k img stub pos flags ts ok0).run k (.cycle true (some d0) k0 :: es ++ .cycle true (some r1.data) k1 ::
        (if o then .on t0 else .off t0) :: rest ++ [.cycle true (some r.data) ok]) = some w ∧
      ∃ n, w.shown k t (.num q) pFb m = some n ∧ isError n = !r.fits ok := by
  obtain ⟨w, hw, w1, w2, w3, w4, w5⟩ := history k (start k img stub pos flags ts ok0) d0 r1.data r.data k0 k1 ok es rest he hr
    (if o then .on t0 else .off t0) t0 (by
      cases o with
      | true =>
        refine Or.inr ⟨rfl, fun u hu => ?_⟩
        have ho' : (r1.y1 && r1.y2 && r1.y3) = false := ho
        obtain ⟨-, -, -, -, f8, f9, f10, -⟩ := tvis_flags k hk r1 u hu
        have : u.there k = (u.flag 8 && u.flag 9 && u.flag 10) := by rcases hk with rfl | rfl <;> rfl
        rw [this, f8, f9, f10, ho']
      | false => exact Or.inl ⟨rfl, ho⟩)
  obtain ⟨f0, f1, f3, f4, f8, f9, f10, f11⟩ := tvis_flags k hk r w w2
  refine ⟨w, hw, shown_late k w q h0 h1 pFb hf t m (by rw [w1]; exact ht) (by rw [w1]; exact hlate) ?_ ?_ _ ?_⟩
  · rcases hk with rfl | rfl
    · simp only [V.state]; split <;> simp
    · have := hseat rfl
      simp only [V.state, f8, f9, f10]
      revert this
      cases r.y1 <;> cases r.y2 <;> cases r.y3 <;> simp
  · rcases hk with rfl | rfl
    · simp only [V.state]; split <;> simp
    · have := hseat rfl
      simp only [V.state, f8, f9, f10]
      revert this
      cases r.y1 <;> cases r.y2 <;> cases r.y3 <;> simp
  · intro hin
    have hfb : w.fb k t (.num q) = if !ok then some false else if r.err then some false else if r.setup then some false else
        some (V.confirms .tvisSs 0 w) := by
      rcases hk with rfl | rfl <;> simp only [V.fb, w3, V.err, f11, f4, hin] <;> rfl
    rw [hfb]
    simp only [V.confirms, f0, f1, f3, f8, f9, f10, Tvis.fits]
    cases ok <;> cases r.err <;> cases r.setup <;> cases r.y1 <;> cases r.y2 <;> cases r.y3 <;> cases r.closed <;> cases r.rest <;>
      cases r.stroke <;> rfl

-- A single seat valve told to open at 1 s: its pilot is on, but it has not made its stroke at 5 s.
example : ((start .tvisSs 0 0 0 0 0 true).run .tvisSs [.cycle true (some (0x09, 0, 0, 0)) true, .cycle true (some (0x09, 0, 0, 0)) true,
    .on 1000, .cycle true (some (0x00, 0x01, 0, 0)) true]).bind (fun w => w.shown .tvisSs 5000 (.num 3000) (.num 1) false) = some (-2) := by
  decide +kernel

/-- C114 fails: as long as the head does not report open (T.VIS: all three pilots on, which never happens), every `on()` starts
the time again.  After any history a program which repeats `on()` more often than `P_ON_TIME`, as the operations do, sees no
error. -/
theorem C114_repeated_violated (k : Kind) (v u : V) (es : List Ev) (h : v.run k es = some u) (d : Data) (hd : match k with
      | .thinktop => ∃ r : Report, d = r.thinktop ∧ r.opened = false ∧ r.faulty .thinktop = false
      | .sorio => ∃ r : Report, d = r.sorio ∧ r.opened = false ∧ r.faulty .sorio = false
      | _ => ∃ r : Tvis, d = r.data ∧ (r.y1 && r.y2 && r.y3) = false ∧ r.err = false ∧ r.setup = false)
    (q : Rat) (h1 : q ≤ 2 ^ 24) (pFb : Fl) (m : Bool) (t t1 : Tm) (ht : t ≤ t1) (hin : ((t1.toNat - t.toNat : Nat) : Rat) < q) : ∃ w,
      v.run k (es ++ [.cycle true (some d) true, .on t]) = some w ∧
      ∃ n, w.shown k t1 (.num q) pFb m = some n ∧ isError n = false := by
  let x : V := { u with ioOk := true, ptr := .image, pos := (k.decode d).1, flags := (k.decode d).2 }
  have hx : x.there k = false ∧ x.err k = false ∧ (k = .tvisSs ∨ k = .tvisDs → x.flag 4 = false) := by
    cases k with
    | thinktop =>
      obtain ⟨r, rfl, ho, hf⟩ := hd
      obtain ⟨-, f1, -, fe⟩ := thinktop_flags r x rfl
      exact ⟨f1.trans ho, fe.trans hf, by simp⟩
    | sorio =>
      obtain ⟨r, rfl, ho, hf⟩ := hd
      obtain ⟨-, f1, -, fe⟩ := sorio_flags r x rfl
      exact ⟨f1.trans ho, fe.trans hf, by simp⟩
    | tvisSs =>
      obtain ⟨r, rfl, ho, hf, hs⟩ := hd
      obtain ⟨-, -, -, f4, f8, f9, f10, f11⟩ := tvis_flags .tvisSs (by simp) r x rfl
      exact ⟨by simp only [V.there, f8, f9, f10, ho], f11.trans hf, fun _ => f4.trans hs⟩
    | tvisDs =>
      obtain ⟨r, rfl, ho, hf, hs⟩ := hd
      obtain ⟨-, -, -, f4, f8, f9, f10, f11⟩ := tvis_flags .tvisDs (by simp) r x rfl
      exact ⟨by simp only [V.there, f8, f9, f10, ho], f11.trans hf, fun _ => f4.trans hs⟩
  obtain ⟨hx1, hx2, hx3⟩ := hx
  let w : V := { x with start := t, img := (u.img &&& ~~~ k.mask) ||| k.main }
  have hw : x.on k t = some w := by
    simp only [V.on, V.out, hx1]
    rfl
  refine ⟨w, ?_, ?_⟩
  · simp only [run_append, h, V.run, cycle_linked, Option.bind_some]
    change (x.on k t).bind _ = _
    rw [hw]; rfl
  · have hi : Valve.inTime t1 w.start (.num q) = true := Valve.inTime_early t1 t q h1 (by rw [Valve.passed_eq _ _ ht]; exact hin)
    have he : w.err k = false := hx2
    have hfb : w.fb k t1 (.num q) = some true := by
      have hok : w.ioOk = true := rfl
      cases k with
      | thinktop => simp [V.fb, hok, he, hi]
      | sorio => simp [V.fb, hok, he, hi]
      | tvisSs =>
        have h4 : w.flag 4 = false := hx3 (by simp)
        simp [V.fb, hok, he, hi, h4]
      | tvisDs =>
        have h4 : w.flag 4 = false := hx3 (by simp)
        simp [V.fb, hok, he, hi, h4]
    unfold V.shown
    simp only [hfb]
    by_cases s3 : w.state k = 3
    · cases m <;> cases pFb.eq (.num 0) <;> simp [s3, isError]
    · by_cases s2 : w.state k = 2
      · cases m <;> cases pFb.eq (.num 0) <;> simp [s2, isError]
      · by_cases s1 : w.state k = 1
        · cases m <;> cases pFb.eq (.num 0) <;> simp [s1, isError]
        · cases m <;> cases pFb.eq (.num 0) <;> simp [s1, s2, s3, isError]

-- A ThinkTop told to open every second for 100 seconds stays closed and is shown closed, in order.
example : ((start .thinktop 0 0 0 0 0 true).run .thinktop ((List.range 101).flatMap fun i =>
    [.cycle true (some (0, 0, 0, 0x11)) true, .on (1000 * BitVec.ofNat 64 i)])).bind
      (fun w => w.shown .thinktop 100500 (.num 3000) (.num 1) false) = some 0 := by decide +kernel

/-- C114 fails for T.VIS: it is never compared with what the valve was told.  Whatever it was told, however long ago, a head
which reports no pilot on and the rest position is shown as closed, in order. -/
theorem C114_ignored_violated (k : Kind) (hk : k = .tvisSs ∨ k = .tvisDs) (v u : V) (es : List Ev) (h : v.run k es = some u) (r : Tvis)
    (hr : (r.y1, r.y2, r.y3) = (false, false, false) ∧ r.closed = true ∧ r.rest = true ∧ r.err = false ∧ r.setup = false)
    (t : Tm) (pOn pFb : Fl) (hf : pFb.eq (.num 0) = false) : ∃ w,
      v.run k (es ++ [.cycle true (some r.data) true]) = some w ∧ w.shown k t pOn pFb false = some 0 := by
  refine ⟨_, by simp only [run_append, h, V.run, cycle_linked, Option.bind_some]; rfl, ?_⟩
  let w : V := { u with ioOk := true, ptr := .image, pos := (k.decode r.data).1, flags := (k.decode r.data).2 }
  change w.shown k t pOn pFb false = _
  obtain ⟨f0, f1, f3, f4, f8, f9, f10, f11⟩ := tvis_flags k hk r w rfl
  obtain ⟨hy, hc, hrest, herr, hs⟩ := hr
  simp only [Prod.mk.injEq] at hy
  rw [hy.1] at f8; rw [hy.2.1] at f9; rw [hy.2.2] at f10; rw [hc] at f0; rw [hrest] at f3; rw [herr] at f11; rw [hs] at f4
  have hok : w.ioOk = true := rfl
  have hst : w.state k = 0 := by rcases hk with rfl | rfl <;> simp [V.state, f8, f9, f10]
  have hfb : w.fb k t pOn = some true := by
    rcases hk with rfl | rfl <;> cases hi : Valve.inTime t w.start pOn <;>
      simp [V.fb, hok, V.err, f11, f4, hi, V.confirms, f8, f9, f10, f0, f3]
  simp [V.shown, hst, hfb, hf]

-- A valve told to open a day ago, whose head has not switched its pilot on.
example : ((start .tvisSs 0 0 0 0 0 true).run .tvisSs
    [.cycle true (some (0x09, 0, 0, 0)) true, .on 1000, .cycle true (some (0x09, 0, 0, 0)) true]).bind
      (fun w => w.shown .tvisSs 86400000 (.num 3000) (.num 1) false) = some 0 := by decide +kernel

/-- C114 fails for double seat T.VIS: while one pilot of a seat is on, no error is shown, neither of the head, nor of the link,
nor of the setup, wherever the discs are. -/
theorem C114_seat_violated (v u : V) (es : List Ev) (h : v.run .tvisDs es = some u) (r : Tvis) (hy1 : r.y1 = false)
    (hy : (r.y2, r.y3) = (true, false) ∨ (r.y2, r.y3) = (false, true)) (ok : Bool) (t : Tm) (pOn pFb : Fl) (m : Bool) : ∃ w,
      v.run .tvisDs (es ++ [.cycle true (some r.data) ok]) = some w ∧
      ∃ n, w.shown .tvisDs t pOn pFb m = some n ∧ isError n = false := by
  refine ⟨_, by simp only [run_append, h, V.run, cycle_linked, Option.bind_some]; rfl, ?_⟩
  let w : V := { u with ioOk := ok, ptr := .image, pos := (Kind.decode .tvisDs r.data).1, flags := (Kind.decode .tvisDs r.data).2 }
  change ∃ n, w.shown .tvisDs t pOn pFb m = some n ∧ _
  obtain ⟨f0, f1, f3, f4, f8, f9, f10, f11⟩ := tvis_flags .tvisDs (by simp) r w rfl
  rw [hy1] at f8
  rcases hy with hy | hy <;> simp only [Prod.mk.injEq] at hy <;> rw [hy.1] at f9 <;> rw [hy.2] at f10
  · have : w.state .tvisDs = 3 := by simp [V.state, f8, f9, f10]
    cases m <;> cases hp : pFb.eq (.num 0) <;> simp [V.shown, this, isError, hp]
  · have : w.state .tvisDs = 2 := by simp [V.state, f8, f9, f10]
    cases m <;> cases hp : pFb.eq (.num 0) <;> simp [V.shown, this, isError, hp]

-- The lower seat pushed, the head in error, the link lost.
example : ((start .tvisDs 0 0 0 0 0 true).run .tvisDs [.cycle true (some (0x00, 0x0A, 0, 0)) false]).bind
    (fun w => w.shown .tvisDs 86400000 (.num 3000) (.num 1) false) = some 3 := by decide +kernel

/-- C114 fails for SORIO: the feedback values shown are those of the solenoid, not of the position.  A valve whose solenoid is on
and which has stayed closed shows the open feedback and not the closed one. -/
theorem C114_values_violated (v u : V) (es : List Ev) (h : v.run .sorio es = some u) (r : Report) (ao ok : Bool) : ∃ w,
    v.run .sorio (es ++ [.cycle ao (some (r.data .sorio)) ok]) = some w ∧ w.onFb .sorio = some r.solenoid ∧
      w.offFb .sorio = some (!r.solenoid) := by
  refine ⟨_, by simp only [run_append, h, V.run, V.step, V.cycle, Option.bind_some]; rfl, ?_⟩
  obtain ⟨-, -, f8, -⟩ := sorio_flags r { u with
      ptr := if ao then .image else .null, ioOk := ok, pos := (Kind.decode .sorio r.sorio).1,
      flags := (Kind.decode .sorio r.sorio).2 } rfl
  exact ⟨congrArg some f8, congrArg some (congrArg (!·) f8)⟩

-- Solenoid on, position closed.
example : ((start .sorio 0 0 0 0 0 true).run .sorio [.cycle true (some (0, 0, 1, 1)) true]).map
    (fun w => (w.onFb .sorio, w.offFb .sorio, w.state .sorio)) = some (some true, some false, 0) := by decide +kernel

end Ptusa.IolValve
