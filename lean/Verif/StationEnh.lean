import Verif.Wind

/-!
The enhancement of the stations of the Winstral wind model: the names of the stations as they are loaded
(smrf/data/csv.py 43-48), the column that `WinstralWindModel.initialize` fills
(smrf/distribute/wind/winstral.py 135-149) and its use at a time step (winstral.py 290-369).

Simplifications: a configuration section is a list of items, each at most once; upper and lower case are those of the
ASCII letters; a text carries the number that `float` makes of it, if any. The metadata table is the object that the
data class and the modules share (image_data.py 157-161: `self.stations` is always `None`, so no copy is made).
-/

namespace Verif.StationEnh

variable {K : Type}

abbrev Name := List Char

/-- `str.lower` and `str.upper`. -/
def lower (n : Name) : Name := n.map Char.toLower
def upper (n : Name) : Name := n.map Char.toUpper

/-- A value of a configuration item. -/
inductive Scalar (K : Type) where
  | num (x : K)
  | text (parsed : Option K)
  | none
  deriving DecidableEq

inductive Val (K : Type) where
  | one (s : Scalar K)
  | list (l : List (Scalar K))
  deriving DecidableEq

inductive Err where
  /-- `float` of a word -/
  | value
  /-- `float(None)`, `float` of a list -/
  | type
  /-- the first of an empty list -/
  | index
  /-- no `station_default` -/
  | key
  /-- `.upper()` or `.lower()` of a number -/
  | attribute
  deriving DecidableEq

/-- The section `[wind]`. -/
abbrev Section (K : Type) := List (Name × Val K)

/-- `self.config[name]`, if the key is there. -/
def item (c : Section K) (n : Name) : Option (Val K) := (c.find? fun p => p.1 = n).map (·.2)

/-- `float`. -/
def toFloat : Scalar K → Except Err K
  | .num x => .ok x
  | .text (some x) => .ok x
  | .text none => .error .value
  | .none => .error .type

/-- The enhancement of an item: the first of a list. winstral.py 143-149. -/
def enhOf : Val K → Except Err K
  | .one s => toFloat s
  | .list [] => .error .index
  | .list (s :: _) => toFloat s

/-- `float(self.config['station_default'])`. winstral.py 137-138. -/
def default (c : Section K) : Except Err K :=
  match item c ['s', 't', 'a', 't', 'i', 'o', 'n', '_', 'd', 'e', 'f', 'a', 'u', 'l', 't'] with
  | none => .error .key
  | some (.one s) => toFloat s
  | some (.list _) => .error .type

/-- The metadata: the names of the stations and the column `enhancement`, if there is one. -/
structure Meta (K : Type) where
  index : List Name
  column : Option (Name → K)

/-- The loop over the stations, filling the column; an exception leaves what was written. winstral.py 140-149. -/
def fill (c : Section K) : List Name → (Name → K) → (Name → K) × Option Err
  | [], f => (f, none)
  | m :: ms, f =>
    match item c (lower m) with
    | none => fill c ms f
    | some v =>
      match enhOf v with
      | .error e => (f, some e)
      | .ok x => fill c ms fun n => if n = m then x else f n

/-- The part of `initialize` on the enhancements: the metadata after it and the exception. winstral.py 135-149. -/
def setUp (c : Section K) (md : Meta K) : Meta K × Option Err :=
  match md.column with
  | some _ => (md, none)
  | none =>
    match default c with
    | .error e => (md, some e)
    | .ok d =>
      let r := fill c md.index fun _ => d
      ({ md with column := some r.1 }, r.2)

/-- A value of the column `primary_id`: `read_csv` makes numbers of it if all are digits. -/
inductive Id where
  | word (n : Name)
  | number (x : Int)
  deriving DecidableEq

/-- `[s.upper() for s in metadata.index]`. csv.py 43-48. -/
def load : List Id → Except Err (List Name)
  | [] => .ok []
  | .word n :: l => match load l with
    | .error e => .error e
    | .ok ns => .ok (upper n :: ns)
  | .number _ :: _ => .error .attribute

/-- A station of the time step. winstral.py 317-321. -/
def station (f : Name → K) (n : Name) (speed direction : Option K) (maxus : List K) : Wind.Sta K :=
  ⟨String.ofList (upper n), speed, direction, f n, maxus⟩

end Verif.StationEnh
