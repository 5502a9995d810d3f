import Verif.Journal.Model

/-!
# What the journal is to hold
-/
namespace Ptusa.Journal
open SaveDev (Txt natText)

/-- The entry for the text `t`: the text itself, and in the system's journal one line of it, ends of lines inside the text being semicolons. -/
structure Shows (e : Entry) (p : Prio) (t : Txt) : Prop where
  prio : e.prio = p
  console : e.console = t
  length : e.sys.length = t.length
  sys : ∀ i c, t[i]? = some c → e.sys[i]? = some (if c = '\n' ∧ i + 1 < t.length then ';' else c)

/-- A first line that states the version `v`. -/
structure States (v : Nat) (line : Txt) : Prop where
  parts : ∃ b c t : Txt, line = "--version".toList ++ b ++ '=' :: c ++ natText v ++ t ∧ (∀ x ∈ b ++ c, x = ' ' ∨ x = '\t') ∧
    (∀ x u, t = x :: u → x.isDigit = false)
  one : '\n' ∉ line
  length : line.length ≤ 98

end Ptusa.Journal
