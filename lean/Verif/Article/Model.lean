import Verif.IolSens.Model
/-!
# The article number of a device

`device::set_article` (`PAC/common/device/base.cpp:196-204`) and the devices that decode their data by
it: `pressure_e_iolink`, `level_e_iolink` and `level_s_iolink` (`PAC/common/device/device.cpp`).
-/
namespace Ptusa.Article
open Ptusa.IolSens

/-- `pressure_e_iolink::read_article` (device.cpp 2888-2954) with the present `n_article` `old`; a text
that is not in the list leaves it (the warning is printed only when debugging). -/
def readP (article : String) (old : PArticle) : PArticle :=
  if article = "IFM.PI2715" then .pi2715
  else if article = "IFM.PI2794" then .pi2794
  else if article = "IFM.PI2797" then .pi2797
  else if article = "IFM.PM1704" then .pm1704
  else if article = "IFM.PM1705" then .pm1705
  else if article = "IFM.PM1706" then .pm1706
  else if article = "IFM.PM1707" then .pm1707
  else if article = "IFM.PM1708" then .pm1708
  else if article = "IFM.PM1709" then .pm1709
  else if article = "IFM.PM1715" then .pm1715
  else if article = "FES.8001446" then .fes8001446
  else old

/-- The comparisons of `level_s_iolink::set_article` (device.cpp 2626-2651). -/
def readL (article : String) (old : LArticle) : LArticle :=
  if article = "IFM.LMT100" then .lmt100
  else if article = "IFM.LMT102" then .lmt102
  else if article = "IFM.LMT104" then .lmt104
  else if article = "IFM.LMT105" then .lmt105
  else if article = "E&H.FTL33-GR7N2ABW5J" then .ftl33
  else old

/-- A device: the copy of the text it keeps (`device::article`) and the number of the layout. -/
structure Dev (α : Type) where
  text : Option String
  n : α

/-- What is handed to `set_article`: some text, or the pointer `get_article()` of the same device
returned before. -/
inductive Arg where
  | text (s : String)
  | own
  deriving DecidableEq, Repr

/-- `set_article` of a device: the base (base.cpp 196-204) deletes the old copy before it reads the new
text, so its own text must not be handed to it (`none`: undefined behaviour); then the layout is chosen
(`read`: `readP` for pressure and level, device.cpp 2833-2837 and 2882-2886, `readL` for the switch,
2622-2658). -/
def setArticle {α : Type} (read : String → α → α) (d : Dev α) : Arg → Option (Dev α)
  | .text s => some ⟨some s, read s d.n⟩
  | .own => none

/-- A device as created (`n_article = ARTICLE::DEFAULT`, device.h 262, 374, 999). -/
def fresh {α : Type} (dflt : α) : Dev α := ⟨none, dflt⟩

/-- A history of calls. -/
def run {α : Type} (read : String → α → α) (d : Dev α) : List Arg → Option (Dev α)
  | [] => some d
  | a :: as =>
    match setArticle read d a with
    | none => none
    | some d' => run read d' as

end Ptusa.Article
