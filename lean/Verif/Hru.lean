import Mathlib.Algebra.Order.Field.Basic

/-!
Model of the output per hydrologic response unit: `smrf/output/output_hru.py` and the calls of
`smrf/framework/model_framework.py`. Values are exact (the three digits of the format are not modelled); NaN is `none`.
-/

namespace Verif.Hru

section

variable {K : Type} [Field K]

/-- `np.nanmean`: the mean of the values that are not NaN; `none` (NaN) if there are none. -/
def nanmean (l : List (Option K)) : Option K :=
  let v := l.filterMap id
  if v.length = 0 then none else some (v.sum / v.length)

/-- `np.nanmean(data[hru == h + 1])` for unit `h`; a cell is given by its unit number and its value.
output_hru.py 77-78, 161-162. -/
def unitMean (cells : List (Int × Option K)) (h : Nat) : Option K :=
  nanmean ((cells.filter fun c => decide (c.1 = (h : Int) + 1)).map fun c => c.2)

/-- `func`: millimetres to inches, Celsius to Fahrenheit, or nothing. output_hru.py 166-169. -/
def applyFunc (func : Option String) (v : Option K) : Option K :=
  if func = some "mm2in" then v.map fun x => x / (254 / 10)
  else if func = some "C2F" then v.map fun x => x * 9 / 5 + 32
  else v

/-- The row of values for one variable and time: units 1 to `hruMax`. output_hru.py 159-169. -/
def unitRow (func : Option String) (hruMax : Nat) (cells : List (Int × Option K)) : List (Option K) :=
  (List.range hruMax).map fun h => applyFunc func (unitMean cells h)

end

/-! ### The files -/

/-- A line of a file: the column names, or a date and the values. An empty date is `none`. `D` is the type of dates, `R` of
the values of a row. -/
inductive Line (D R : Type) where
  | header
  | row (date : Option D) (values : R)

/-- The object: the row counter and everything written so far, with the variable whose file it went to. -/
structure St (D R : Type) where
  idx : Nat
  log : List (String × Line D R)

variable {D R : Type}

/-- `output` for one variable. The values go to row `idx` of the table and this row is written; the dates of the
table are those of the run. Behind its end `loc` adds a row without a date; the PRMS format (`prms`) converts the date to
integers, an error (`none`). The header comes with row 0, not with PRMS. The argument `date_time` is not used.
output_hru.py 142-192. -/
def output (prms : Bool) (dates : List D) (s : St D R) (v : String) (values : R) : Option (St D R) :=
  let date := dates[s.idx]?
  if prms && date.isNone then none
  else
    let hdr := if s.idx = 0 ∧ prms = false then [(v, Line.header)] else []
    some ⟨s.idx + 1, s.log ++ hdr ++ [(v, Line.row date values)]⟩

/-- A sequence of calls. -/
def outputs (prms : Bool) (dates : List D) : St D R → List (String × R) → Option (St D R)
  | s, [] => some s
  | s, c :: cs => (output prms dates s c.1 c.2).bind fun s => outputs prms dates s cs

/-- The calls of the framework: at each step whose number is a multiple of the frequency, all variables in order.
`data k v` is the row of variable `v` at step `k`. model_framework.py 716-749. -/
def calls (vars : List String) (freq n : Nat) (data : Nat → String → R) : List (String × R) :=
  ((List.range n).filter fun k => decide (k % freq = 0)).flatMap fun k => vars.map fun v => (v, data k v)

/-- A run over all dates. -/
def run (prms : Bool) (dates : List D) (vars : List String) (freq : Nat) (data : Nat → String → R) : Option (St D R) :=
  outputs prms dates ⟨0, []⟩ (calls vars freq dates.length data)

/-- The lines of the file of a variable (after the PRMS header, which is written at the start for each variable,
output_hru.py 124-140). -/
def file (s : St D R) (v : String) : List (Line D R) := (s.log.filter fun l => l.1 == v).map fun l => l.2

end Verif.Hru
