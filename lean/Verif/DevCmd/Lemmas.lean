import Verif.DevCmd.Spec

namespace Ptusa.DevCmd

open Spec

theorem whole_int {lo hi : Int} {v : Fl} (h : Whole lo hi v) : whole lo hi v = some v := by
  obtain ⟨t, rfl, h1, h2⟩ := h
  unfold whole
  simp only [Rat.num_intCast, Rat.den_intCast, Int.cast_ofNat_Int, Nat.cast_one, Int.tdiv_one]
  rw [if_pos ⟨h1, h2⟩]

theorem bit_ne {v : Fl} (h : v = 0 ∨ v = 1) : bit (!v.eq 0) = v := by
  rcases h with rfl | rfl <;> decide +kernel

theorem bit_lt {v : Fl} (h : v = 0 ∨ v = 1) : bit (Fl.lt 0 v) = v := by
  rcases h with rfl | rfl <;> decide +kernel

theorem device_par {pars : List Name} {n : Name} (hp : ParNames pars) (hn : n ∈ pars) (v : Fl) :
    ∃ r, n = 'P' :: '_' :: r ∧ device pars n v = sets (.par n) v := by
  obtain ⟨r, hr⟩ := hp n hn
  refine ⟨r, hr, ?_⟩
  have : ch n 0 = some 'P' := by rw [hr]; rfl
  unfold device
  rw [this]
  simp only
  rw [if_pos hn]

/-- The conversion of each variable. -/
def raw (c : Cls) (f : Field) (v : Fl) : Option Fl :=
  match f with
  | .state | .result | .reverse | .rpm | .est => int32 v
  | .manual => if v.eq 0 then some 0 else some 1
  | .emul | .fbOn | .fbOff => some (bit (!v.eq 0))
  | .blink | .ready => some (bit (Fl.lt 0 v))
  | .abs => if c = .vcounter then uint32 v else some v
  | .flow => if c = .counterIol then int16 (v * 100) else some v
  | .temp => int16 (v * 10)
  | _ => some v

theorem raw_sense {c : Cls} {f : Field} {v w : Fl} (h : Sense c f v w) : raw c f v = some w := by
  cases f <;> simp only [Sense] at h <;> simp only [raw]
  case state => rw [h.2]; exact whole_int h.1
  case result => rw [h.2]; exact whole_int h.1
  case reverse => rw [h.2]; exact whole_int h.1
  case rpm => rw [h.2]; exact whole_int h.1
  case est => rw [h.2]; exact whole_int h.1
  case manual =>
    rw [h.2]
    rcases h.1 with e | e <;> rw [e] <;> decide +kernel
  case emul => rw [h.2, bit_ne h.1]
  case fbOn => rw [h.2, bit_ne h.1]
  case fbOff => rw [h.2, bit_ne h.1]
  case blink => rw [h.2, bit_lt h.1]
  case ready => rw [h.2, bit_lt h.1]
  case abs =>
    by_cases e : c = .vcounter
    · rw [if_pos e] at h ⊢; rw [h.2]; exact whole_int h.1
    · rw [if_neg e] at h ⊢; rw [h]
  case flow =>
    by_cases e : c = .counterIol
    · rw [if_pos e] at h ⊢; rw [h.2]; exact whole_int h.1
    · rw [if_neg e] at h ⊢; rw [h]
  case temp => rw [h.2]; exact whole_int h.1
  all_goals rw [h]

theorem sense_manual {c : Cls} {v w : Fl} (h : Sense c .manual v w) (pars : List Name) : device pars ['M'] v = sets .manual w := by
  obtain ⟨h1, h2⟩ := h
  rw [h2]
  rcases h1 with e | e <;> rw [e] <;> rfl

theorem always0_setsIf (f : Field) (o : Option Fl) : always0 (setsIf f o) = setsIf f o := by cases o <;> rfl

theorem cmd_names (emu : Bool) (pars : List Name) (c : Cls) (s : String) (f : Field) (h : (s, f) ∈ names emu c) (hf : f ≠ .manual) (v : Fl) :
    cmd emu pars c s.toList v = setsIf f (raw c f v) := by
  cases c <;> cases emu <;>
    simp only [names, common, ofCounter, ofAnalog, List.cons_append, List.nil_append, if_true, Bool.false_eq_true, if_false, List.append_nil] at h <;>
    repeat (first
      | exact absurd h List.not_mem_nil
      | (rcases List.mem_cons.mp h with h | h
         · (injection h with h1 h2
            subst h1
            subst h2
            first | rfl | exact absurd rfl hf | exact always0_setsIf _ _)))

theorem cmd_manual (emu : Bool) (pars : List Name) (c : Cls) (v w : Fl) (hs : Sense c .manual v w) :
    cmd emu pars c ['M'] v = sets .manual w := by
  have hd := sense_manual hs pars
  cases c <;> cases emu <;> first | exact hd | (show always0 (device pars ['M'] v) = _; rw [hd]; rfl)

theorem names_manual (emu : Bool) (c : Cls) (s : String) (h : (s, Field.manual) ∈ names emu c) : s = "M" := by
  cases c <;> cases emu <;> simp [names, common, ofCounter, ofAnalog] at h <;> exact h

/-- A command that makes sense sets its variable. -/
theorem cmd_means {emu : Bool} {pars : List Name} (hp : ParNames pars) {c : Cls} {n : Name} {f : Field} (h : Means emu pars c n f) {v w : Fl}
    (hs : Sense c f v w) : cmd emu pars c n v = sets f w := by
  rcases h with ⟨s, h1, h2⟩ | ⟨h1, h2⟩
  · by_cases e : f = .manual
    · subst e
      rw [h2, names_manual emu c s h1]
      exact cmd_manual emu pars c v w hs
    · rw [h2, cmd_names emu pars c s f h1 e v, raw_sense hs]; rfl
  · obtain ⟨r, hr, hd⟩ := device_par hp h1 v
    have hw : w = v := by rw [h2] at hs; exact hs
    rw [h2, hw]
    have n1 : n ≠ "PREV_DAY_T1".toList := by rw [hr]; intro e; injection e with _ e; injection e with e _; exact absurd e (by decide)
    have n2 : n ≠ "PREV_DAY_T2".toList := by rw [hr]; intro e; injection e with _ e; injection e with e _; exact absurd e (by decide)
    have hc : ch n 0 = some 'P' := by rw [hr]; rfl
    have hP : ∀ m : List Char, m.head? ≠ some 'P' → n ≠ m := by
      intro m hm e; rw [← e, hr] at hm; exact hm rfl
    have hb : baseCounter pars n v = sets (.par n) v := by
      unfold baseCounter; rw [hc]; show (if _ then _ else _) = _; rw [if_neg n1, if_neg n2, hd]
    have hv : valve emu pars n v = sets (.par n) v := by
      unfold valve; rw [hc, if_neg (by decide +revert), hd]
    have ha : analog pars n v = sets (.par n) v := by
      unfold analog
      rw [if_neg (hP "M_EXP".toList (by decide)), if_neg (hP "S_DEV".toList (by decide)), hc, if_neg (by decide), hd]
    cases c
    case plain => exact hd
    case vcounter => unfold cmd; simp only [hc]; exact hd
    case camera =>
      unfold cmd; simp only
      rw [if_neg (hP "RESULT".toList (by decide)), if_neg (hP "READY".toList (by decide)), hd]; rfl
    case counter => exact hb
    case counterF => unfold cmd; simp only [hc]; exact hb
    case counterIol => unfold cmd; simp only [hc]; exact hb
    case analog => exact ha
    case valve => exact hv
    case valveIol => unfold cmd; simp only [hc]; rw [hv]; rfl
    case analogValve => unfold cmd; simp only [hc]; rw [ha]; rfl
    case altivar =>
      unfold cmd; simp only
      rw [if_neg fun e => hP "R".toList (by decide) e.2, if_neg fun e => hP "FRQ".toList (by decide) e.2,
        if_neg fun e => hP "RPM".toList (by decide) e.2, if_neg fun e => hP "EST".toList (by decide) e.2,
        if_neg fun e => hP "AMP".toList (by decide) e.2, hd]

theorem step_means {emu : Bool} {pars : List Name} (hp : ParNames pars) {c : Cls} (s : St) {k : Cmd} {f : Field}
    (h : Means emu pars c k.name f) {w : Fl} (hs : Sense c f k.v w) :
    step emu pars c s k = some (0, fun x => if x = f then w else s x) := by
  unfold step; rw [cmd_means hp h hs]; rfl

theorem run_append (emu : Bool) (pars : List Name) (c : Cls) (s : St) (a b : List Cmd) :
    run emu pars c s (a ++ b) = (run emu pars c s a).bind fun s => run emu pars c s b := by
  induction a generalizing s with
  | nil => rfl
  | cons k ks ih =>
    show (step emu pars c s k).bind _ = ((step emu pars c s k).bind _).bind _
    cases step emu pars c s k with
    | none => rfl
    | some r => exact ih r.2

end Ptusa.DevCmd
