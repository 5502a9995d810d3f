/-!
# Critical errors: `PAC/common/PAC_err.{h,cpp}`
-/
namespace Ptusa.CritErr

/-- `critical_error` (`PAC_err.h:128-136`): class, subclass, parameter. -/
structure Err where
  cls   : BitVec 32
  sub   : BitVec 32
  param : BitVec 32
  deriving DecidableEq, Repr

/-- `PAC_critical_errors_manager` (`PAC_err.h:138-140`). -/
structure Mgr where
  errors : List Err
  id     : BitVec 16
  deriving DecidableEq, Repr

/-- Constructor: no errors, id 0 (`PAC_err.cpp:14-20`). -/
def Mgr.init : Mgr := ⟨[], 0⟩

/-- An API call: the parameter is an `unsigned long` (64 bit). -/
inductive Call where
  | set (cls sub : BitVec 32) (param : BitVec 64)
  | reset (cls sub : BitVec 32) (param : BitVec 64)
  deriving DecidableEq, Repr

/-- The comparison `(unsigned int) p2 == param` keeps the low 32 bits (`PAC_err.cpp:85,110`),
and so does the constructor called by `emplace_back` (`PAC_err.cpp:97`). -/
def key (cls sub : BitVec 32) (param : BitVec 64) : Err := ⟨cls, sub, param.setWidth 32⟩

/-- `set_global_error` (`PAC_err.cpp:75-100`) and `reset_global_error` (`102-126`).  The search
loop plus `erase( begin() + idx )` removes the first matching element. -/
def Mgr.step (m : Mgr) : Call → Mgr
  | .set c s p =>
    if m.errors.any (· == key c s p) then m
    else { errors := m.errors ++ [key c s p], id := m.id + 1 }
  | .reset c s p =>
    if m.errors.any (· == key c s p) then
      { errors := m.errors.erase (key c s p), id := m.id + 1 }
    else m

/-- A history of calls. -/
def Mgr.run (m : Mgr) (h : List Call) : Mgr := h.foldl Mgr.step m

/-- `is_any_error()` (`PAC_err.h:111-114`). -/
def Mgr.isAnyError (m : Mgr) : Bool := !m.errors.isEmpty

end Ptusa.CritErr
