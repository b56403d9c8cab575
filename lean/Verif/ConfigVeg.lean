import Verif.Wind
import Verif.Precip
import Verif.Albedo

/-!
The vegetation dictionaries that the wind, precipitation and albedo classes build from the names of the items of their section
of the configuration: `smrf/distribute/wind/winstral.py` 105-115, `smrf/distribute/precipitation.py` 222-234,
`smrf/distribute/albedo.py` 68-80.
-/

namespace Verif.ConfigVeg

/-- A string. -/
abbrev Str := List Char

/-- The exceptions of these lines. -/
inductive Err where
  | indexError
  | valueError
  | keyError
  deriving DecidableEq

/-- `s.split(c)`: the parts between the separators, empty parts included. -/
def split (c : Char) : Str → List Str
  | [] => [[]]
  | x :: xs =>
    if x = c then [] :: split c xs
    else
      match split c xs with
      | [] => [[x]]
      | p :: ps => (x :: p) :: ps

/-- `needle in s`. -/
def contains (needle : Str) : Str → Bool
  | [] => needle.isPrefixOf []
  | x :: xs => needle.isPrefixOf (x :: xs) || contains needle xs

/-- The value of an item: one number or a list of numbers (the type is a string or list of strings in the code, converted with
`float`; a text that is no number is refused by the check of the configuration, which is not modelled). -/
inductive Val where
  | one (x : ℝ)
  | many (l : List ℝ)

/-- `float(config[m][0])` for a list, `float(config[m])` otherwise. winstral.py 110-113, precipitation.py 230-233. -/
def Val.first : Val → Except Err ℝ
  | .one x => .ok x
  | .many [] => .error .indexError
  | .many (x :: _) => .ok x

/-- A Python dictionary in insertion order. -/
abbrev Dict (V : Type) := List (Str × V)

/-- `d[k] = v`. -/
def Dict.set {V : Type} (d : Dict V) (k : Str) (v : V) : Dict V :=
  if d.any (fun e => decide (e.1 = k)) = true then d.map fun e => if e.1 = k then (k, v) else e
  else d ++ [(k, v)]

/-- `d[k]`, `none` for a `KeyError`. -/
def Dict.get? {V : Type} (d : Dict V) (k : Str) : Option V := (d.find? fun e => decide (e.1 = k)).map Prod.snd

/-- `m.split('_')[i]`. -/
def part (i : Nat) (m : Str) : Except Err Str :=
  match (split '_' m)[i]? with
  | some s => .ok s
  | none => .error .indexError

/-- `m.split('_')[-1]`. -/
def lastPart (m : Str) : Except Err Str :=
  match (split '_' m).getLast? with
  | some s => .ok s
  | none => .error .indexError

/-- The loop `for m in matching: v[key(m)] = value(config[m])`. -/
def build {V : Type} (key : Str → Except Err Str) (val : Val → Except Err V) (d : Dict V) :
    List (Str × Val) → Except Err (Dict V)
  | [] => .ok d
  | (m, v) :: r =>
    match val v with
    | .error e => .error e
    | .ok x =>
      match key m with
      | .error e => .error e
      | .ok k => build key val (d.set k x) r

/-- `self.veg` of the Winstral wind model. winstral.py 105-115. -/
def windVeg (cfg : List (Str × Val)) : Except Err (Dict ℝ) :=
  build (part 1) Val.first [] (cfg.filter fun e => contains "veg_".toList e.1)

/-- `self.veg` of the precipitation. precipitation.py 223-234. -/
def precipVeg (cfg : List (Str × Val)) : Except Err (Dict ℝ) :=
  build (part 1) Val.first []
    ((cfg.filter fun e => contains "winstral_veg_".toList e.1).filter fun e => e.1 ≠ "winstral_veg_default".toList)

/-- `self.veg` (`d` is `veg`) and `self.litter` (`d` is `litter`) of the albedo; the values are kept as they are.
`smrf/distribute/albedo.py` 70-80. -/
def albedoVeg (d : Str) (cfg : List (Str × Val)) : Except Err (Dict Val) :=
  build lastPart .ok [] (cfg.filter fun e => contains (d ++ ['_']) e.1)

/-- `int(k)`: decimal digits only (signs and blanks, which Python also accepts, do not occur in the names of the
configuration). -/
def pyInt (k : Str) : Except Err Nat :=
  if k ≠ [] ∧ k.all Char.isDigit = true then .ok (Nat.ofDigitChars 10 k 0) else .error .valueError

/-- `int(k)` for all keys, in order. -/
def classes {V : Type} : Dict V → Except Err (List (Nat × V))
  | [] => .ok []
  | (k, v) :: r =>
    match pyInt k with
    | .error e => .error e
    | .ok n =>
      match classes r with
      | .error e => .error e
      | .ok l => .ok ((n, v) :: l)

/-- The vegetation part of `simulateWind` at one cell of class `cls` with maxus `c`. winstral.py 224-235; the arithmetic is
`Wind.vegAdjust`. -/
noncomputable def windAdjust (d : Dict ℝ) (cls : Nat) (c : ℝ) : Except Err ℝ :=
  match classes (d.filter fun e => e.1 ≠ "default".toList) with
  | .error e => .error e
  | .ok l =>
    match d.get? "default".toList with
    | none => .error .keyError
    | some dflt => .ok (Wind.vegAdjust (l.map fun e => ((e.1 : Int), e.2)) dflt cls c)

/-- `dist_precip_wind` with the dictionary of the class: after the directions, `int(v)` is taken of every key.
`smrf/envphys/precip.py` 99-211; the arithmetic is `Precip.distPrecipWind`. -/
noncomputable def redistribute (cfg : Precip.WindCfg) (veg : Dict ℝ) (dirs : List ℝ) (tbreak : Nat → Nat → Option ℝ)
    (cells : List Precip.CellIn) : Except Precip.Err (List ℝ) :=
  if cells.all (fun c => (Precip.dirIndex dirs c.dir).isSome) = true then
    match classes veg with
    | .error _ => .error .valueError
    | .ok l => Precip.distPrecipWind cfg l dirs tbreak cells
  else .error .indexError

end Verif.ConfigVeg
