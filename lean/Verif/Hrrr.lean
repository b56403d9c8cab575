import Verif.Vapor
import Verif.Grid

/-
Model of the tables of HRRR data: `parse_data` and `calculate_wind` of `smrf/data/hrrr_grib.py`, with the alignment of
pandas. Some steps go by the labels of a table (time and cell), others by position.

Not modelled: reading the files (weather_forecast_retrieval), the conversion `pd.to_numeric`, and arrays of one row or one
column that numpy would repeat to fit a larger one (here: an error).
-/

namespace Verif.Hrrr

/-- A table: labels of the rows (times), labels of the columns (cells) and the values by position. NaN is `none`. -/
structure Frame (T S : Type) where
  index : List T
  cols : List S
  val : Nat → Nat → Option ℝ

/-- The exceptions. -/
inductive Err where
  | valueError
  | indexError
  | timeError
  deriving DecidableEq

variable {T T' S : Type}

/-- `data[key].tz_localize(tz=self.time_zone)`: new labels for the rows; a time that the zone does not have or has twice
(`loc` gives `none`) is an exception. hrrr_grib.py 134-136. -/
def Frame.localize (loc : T → Option T') (f : Frame T S) : Except Err (Frame T' S) :=
  match f.index.mapM loc with
  | none => .error .timeError
  | some idx => .ok ⟨idx, f.cols, f.val⟩

/-- One axis of `pd.DataFrame(frame, index=.., columns=..)`: the position in the old labels of each new label. Nothing
happens when the labels are the same; otherwise labels that occur twice are an error and labels that are not there are NaN. -/
def positions {L : Type} [DecidableEq L] (old new : List L) : Except Err (Nat → Option Nat) :=
  if old = new then .ok some
  else if old.Nodup then
    .ok fun i => new[i]?.bind fun t => if t ∈ old then some (old.idxOf t) else none
  else .error .valueError

/-- `pd.DataFrame(frame, index=idx, columns=cols)`. hrrr_grib.py 157, 161, 194-195. -/
def Frame.reindex [DecidableEq T] [DecidableEq S] (f : Frame T S) (idx : List T) (cols : List S) : Except Err (Frame T S) :=
  match positions f.index idx with
  | .error e => .error e
  | .ok a =>
    match positions f.cols cols with
    | .error e => .error e
    | .ok b => .ok ⟨idx, cols, fun i j => (a i).bind fun i' => (b j).bind fun j' => f.val i' j'⟩

/-- All labels of two axes, those of the first one first (pandas sorts them; the order is lost in `reindex`). -/
def union {L : Type} [DecidableEq L] (a b : List L) : List L := if a = b then a else a ++ b.filter fun t => decide (t ∉ a)

/-- An operation on two tables by the operators of pandas: both are brought to all labels first. For tables whose labels
differ and occur twice pandas pairs all of them, which ends in an error of `reindex`; here the error comes at once. -/
def Frame.byLabel [DecidableEq T] [DecidableEq S] (op : ℝ → ℝ → ℝ) (f g : Frame T S) : Except Err (Frame T S) :=
  let idx := union f.index g.index
  let cols := union f.cols g.cols
  match f.reindex idx cols with
  | .error e => .error e
  | .ok f' =>
    match g.reindex idx cols with
    | .error e => .error e
    | .ok g' => .ok ⟨idx, cols, fun i j => (f'.val i j).bind fun x => (g'.val i j).map fun y => op x y⟩

/-- An operation on two tables by a function of numpy (pandas before 2.0): by position, with the labels of the first. -/
def Frame.byPosition (op : ℝ → ℝ → ℝ) (f g : Frame T S) : Except Err (Frame T S) :=
  if f.index.length = g.index.length ∧ f.cols.length = g.cols.length then
    .ok ⟨f.index, f.cols, fun i j => (f.val i j).bind fun x => (g.val i j).map fun y => op x y⟩
  else .error .valueError

/-- The table as one row after the other. -/
def flat (f g : Frame T S) : List (Option ℝ × Option ℝ) :=
  (List.range (f.index.length * f.cols.length)).map fun k =>
    (f.val (k / f.cols.length) (k % f.cols.length), g.val (k / f.cols.length) (k % f.cols.length))

/-- The vapor pressure: the values of temperature and humidity are taken by position, the result gets the labels of the
temperature. hrrr_grib.py 140-141, 148-151. -/
noncomputable def vapor (ta rh : Frame T S) : Except Err (Frame T S) :=
  if ta.index.length = rh.index.length ∧ ta.cols.length = rh.cols.length then
    match Vapor.rh2vp (flat ta rh) with
    | .error _ => .error .indexError
    | .ok l => .ok ⟨ta.index, ta.cols, fun i j => (l[i * ta.cols.length + j]?).join⟩
  else .error .valueError

/-- `calculate_wind`: speed by labels, direction by position, both brought to the labels of the temperature. Without wind
in the data (WindNinja) both are NaN. hrrr_grib.py 174-195. -/
noncomputable def wind [DecidableEq T] [DecidableEq S] (ta : Frame T S) (uv : Option (Frame T S × Frame T S)) :
    Except Err (Frame T S × Frame T S) :=
  match uv with
  | none => .ok (⟨ta.index, ta.cols, fun _ _ => none⟩, ⟨ta.index, ta.cols, fun _ _ => none⟩)
  | some (u, v) =>
    match Frame.byLabel Grid.windSpeed u v with
    | .error e => .error e
    | .ok speed =>
      match Frame.byPosition (fun y x => Grid.windDirection x y) v u with
      | .error e => .error e
      | .ok dir =>
        match speed.reindex ta.index ta.cols with
        | .error e => .error e
        | .ok speed' =>
          match dir.reindex ta.index ta.cols with
          | .error e => .error e
          | .ok dir' => .ok (speed', dir')

/-- `get_hrrr_cloud` for a table; `clear` is the clear sky radiation of a time. cloud.py 46-88. -/
noncomputable def cloud (clear : T → ℝ) (solar : Frame T S) : Frame T S :=
  ⟨solar.index, solar.cols, fun i j =>
    ((Grid.hrrrCloud ((List.range solar.index.length).map fun k =>
      (solar.val k j, (solar.index[k]?.map clear).getD 0)))[i]?).join⟩

/-- The tables of weather_forecast_retrieval. -/
structure Data (T S : Type) where
  airTemp : Frame T S
  humidity : Frame T S
  precip : Frame T S
  shortWave : Frame T S
  wind : Option (Frame T S × Frame T S)

/-- The tables handed on. -/
structure Parsed (T S : Type) where
  airTemp : Frame T S
  vapor : Frame T S
  speed : Frame T S
  direction : Frame T S
  precip : Frame T S
  cloud : Frame T S

/-- The loop over the tables. hrrr_grib.py 134-136. -/
def localizeAll (loc : T → Option T') (d : Data T S) : Except Err (Data T' S) := do
  let a ← d.airTemp.localize loc
  let h ← d.humidity.localize loc
  let p ← d.precip.localize loc
  let s ← d.shortWave.localize loc
  match d.wind with
  | none => .ok ⟨a, h, p, s, none⟩
  | some (u, v) => do
    let u ← u.localize loc
    let v ← v.localize loc
    .ok ⟨a, h, p, s, some (u, v)⟩

/-- `parse_data` after the times were localized. hrrr_grib.py 138-165. -/
noncomputable def parseLocal [DecidableEq T] [DecidableEq S] (clear : T → ℝ) (d : Data T S) : Except Err (Parsed T S) := do
  let vp ← vapor d.airTemp d.humidity
  let w ← wind d.airTemp d.wind
  let p ← d.precip.reindex d.airTemp.index d.airTemp.cols
  let s ← d.shortWave.reindex d.airTemp.index d.airTemp.cols
  .ok ⟨d.airTemp, vp, w.1, w.2, p, cloud clear s⟩

/-- `parse_data`. hrrr_grib.py 134-165. -/
noncomputable def parse [DecidableEq T'] [DecidableEq S] (loc : T → Option T') (clear : T' → ℝ) (d : Data T S) :
    Except Err (Parsed T' S) := do
  let d ← localizeAll loc d
  parseLocal clear d

end Verif.Hrrr
