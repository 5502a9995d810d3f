import Verif.Article.Model
/-! # The articles the program knows -/
namespace Ptusa.Article
open Ptusa.IolSens

/-- Pressure sensors by article number. -/
def pressureTable : List (String × PArticle) :=
  [("IFM.PI2715", .pi2715), ("IFM.PI2794", .pi2794), ("IFM.PI2797", .pi2797),
   ("IFM.PM1704", .pm1704), ("IFM.PM1705", .pm1705), ("IFM.PM1706", .pm1706),
   ("IFM.PM1707", .pm1707), ("IFM.PM1708", .pm1708), ("IFM.PM1709", .pm1709),
   ("IFM.PM1715", .pm1715), ("FES.8001446", .fes8001446)]

/-- Level switches by article number. -/
def switchTable : List (String × LArticle) :=
  [("IFM.LMT100", .lmt100), ("IFM.LMT102", .lmt102), ("IFM.LMT104", .lmt104),
   ("IFM.LMT105", .lmt105), ("E&H.FTL33-GR7N2ABW5J", .ftl33)]

/-- The sensor with an article number. -/
def find {α : Type} (t : List (String × α)) (s : String) : Option α :=
  (t.find? fun e => decide (e.1 = s)).map (·.2)

/-- The last article of a history that is known. -/
def lastKnown {α : Type} (t : List (String × α)) (ss : List String) : Option α :=
  ss.reverse.findSome? (find t)

end Ptusa.Article
