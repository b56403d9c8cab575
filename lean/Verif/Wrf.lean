import Verif.NcInput
import Verif.Vapor

/-!
Model of the loading of a WRF file (`smrf/data/wrf.py`): the cells in the bounding box, the records between the dates, and the
tables of the variables. Exact arithmetic. Masked values, and what pandas does with tables that have no columns at all, are not
modelled.
-/

namespace Verif.Wrf

open Verif.NcInput (Box cellName argwhere pick)

/-- The exceptions. -/
inductive Err where
  /-- an index out of the range of a variable, or the first row of a table without rows -/
  | indexError
  /-- naive times compared with a date that has a time zone -/
  | typeError
  deriving DecidableEq

variable {K : Type} [Field K] [LinearOrder K]

/-- The variables `XLAT`, `XLONG`, `HGT`: on (y, x), or on (Time, y, x) with `nt` times, as WRF writes them. -/
inductive Coords (K : Type) where
  | flat (lat lon hgt : Nat → Nat → K)
  | timed (nt : Nat) (lat lon hgt : Nat → Nat → Nat → K)

/-- The file. `T2`, `DWPT`, `RAINNC`, `UGRD`, `VGRD` are on (Time, y, x), `CLDFRA` on (Time, level, y, x). wrf.py 22-29,
97-109. -/
structure File (K : Type) where
  times : List Int
  ny : Nat
  nx : Nat
  levels : Nat
  coords : Coords K
  t2 : Nat → Nat → Nat → K
  dwpt : Nat → Nat → Nat → K
  rain : Nat → Nat → Nat → K
  u : Nat → Nat → Nat → K
  v : Nat → Nat → Nat → K
  cldfra : Nat → Nat → Nat → Nat → K

/-- The functions of the conversions: `satvp`, the wind speed and the wind direction. -/
structure Phys (K : Type) where
  satvp : K → Option K
  speed : K → K → K
  direction : K → K → K

/-- The functions of the code. `satvp` adds 273.15: vapor_pressure.py 114-126. wrf.py 146, 166-171. -/
noncomputable def phys : Phys ℝ where
  satvp d := Vapor.satiPy (some (d + 27315 / 100))
  speed := Grid.windSpeed
  direction := Grid.windDirection

/-- The comparison with the box. wrf.py 62-65. -/
def inside (b : Box K) (lat lon : K) : Bool :=
  decide (lat ≥ b.latmin) && decide (lat ≤ b.latmax) && decide (lon ≥ b.lonmin) && decide (lon ≤ b.lonmax)

/-- The stations: the first two numbers of each row of `np.argwhere(ind)`, which are all that the names and the tables use, and
the latitude, longitude and elevation picked with the mask. wrf.py 62-78, 85-87. -/
def stations (b : Box K) (f : File K) : List ((Nat × Nat) × K × K × K) :=
  match f.coords with
  | .flat lat lon hgt =>
    let ind := fun y x => inside b (lat y x) (lon y x)
    List.zip (argwhere f.ny f.nx ind) (List.zip (pick f.ny f.nx ind lat) (List.zip (pick f.ny f.nx ind lon)
      (pick f.ny f.nx ind hgt)))
  | .timed nt lat lon hgt =>
    (List.range nt).flatMap fun t =>
      let ind := fun y x => inside b (lat t y x) (lon t y x)
      List.zip ((argwhere f.ny f.nx ind).map fun i => (t, i.1)) (List.zip (pick f.ny f.nx ind (lat t))
        (List.zip (pick f.ny f.nx ind (lon t)) (pick f.ny f.nx ind (hgt t))))

/-- `time_ind`: the records between the dates, with their times. The times have a time zone only if it is UTC (by its name);
other times cannot be compared with the dates. wrf.py 53-57, 123-125. -/
def records (tz : List Char) (times : List Int) (start stop : Int) : Except Err (List (Int × Nat)) :=
  if tz.map Char.toLower = "utc".toList then
    .ok (times.zipIdx.filter fun t => decide (t.1 ≥ start) && decide (t.1 ≤ stop))
  else .error .typeError

/-- A row of the metadata with the columns of the tables that have its name. -/
structure Station (K : Type) where
  name : List Char
  lat : K
  lon : K
  elev : K
  airTemp : List K
  vapor : List (Option K)
  cloud : List (Option K)
  speed : List K
  direction : List K
  precip : List (Option K)

/-- `1 - np.mean(CLDFRA, axis=1)` of a cell; without levels it is NaN. wrf.py 152. -/
def cloud (f : File K) (t y x : Nat) : Option K :=
  if f.levels = 0 then none
  else some (1 - ((List.range f.levels).map fun l => f.cldfra t l y x).sum / f.levels)

/-- The columns of one station: indices `i`, records `sel`. wrf.py 134-137, 143, 146, 153-156, 173-176, 179-180. -/
def station (ph : Phys K) (f : File K) (sel : List Nat) (s : (Nat × Nat) × K × K × K) : Station K where
  name := cellName s.1
  lat := s.2.1
  lon := s.2.2.1
  elev := s.2.2.2
  airTemp := sel.map fun t => f.t2 t s.1.1 s.1.2 - 27315 / 100
  vapor := sel.map fun t => ph.satvp (f.dwpt t s.1.1 s.1.2)
  cloud := sel.map fun t => cloud f t s.1.1 s.1.2
  speed := sel.map fun t => ph.speed (f.u t s.1.1 s.1.2) (f.v t s.1.1 s.1.2)
  direction := sel.map fun t => ph.direction (f.u t s.1.1 s.1.2) (f.v t s.1.1 s.1.2)
  precip := (Grid.wrfPrecip (sel.map fun t => some (f.rain t s.1.1 s.1.2))).getD []

/-- `load`. The first row of the precipitation is set at the end, an error if there is none. wrf.py 94-180. -/
def load (ph : Phys K) (tz : List Char) (start stop : Int) (b : Box K) (f : File K) : Except Err (List (Station K)) :=
  match records tz f.times start stop with
  | .error e => .error e
  | .ok sel =>
    if (stations b f).all (fun s => decide (s.1.1 < f.ny) && decide (s.1.2 < f.nx)) then
      if sel.isEmpty then .error .indexError
      else .ok ((stations b f).map (station ph f (sel.map Prod.snd)))
    else .error .indexError

end Verif.Wrf
