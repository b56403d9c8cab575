import Mathlib.Data.List.Basic

/-!
The items of the configuration: which ones a section has after the recipes (`smrf/framework/CoreConfig.ini`,
`smrf/framework/recipes.ini`), and which ones the classes read (`smrf/distribute/image_data.py`, `smrf/spatial/*.py`,
`smrf/distribute/vapor_pressure.py`, `smrf/distribute/precipitation.py`, `smrf/envphys/precip.py`, `smrf/distribute/wind/*.py`).

The recipes are applied by the package inicheck, which is not part of the repository. Assumed of it: the recipes are
applied in the order of the file; a recipe acts if its trigger holds; `apply_defaults` adds the items that are missing,
with their default; `remove_item` removes. Whether `item = default` replaces a value of the user is a parameter (`over`),
and so is whether a recipe with several triggers needs one of them or all (`alt`).
-/

namespace Verif.Items

/-- The names of items. `tbreakThreshold` is `tbreak_threshold`, which is in no section of CoreConfig.ini; `other` stands for
names that no line modelled here reads or removes. -/
inductive Item where
  | min | max | distribution | detrend | detrendSlope | stations | gridMask | gridMethod | gridLocal | gridLocalN
  | idwPower | dkNcores
  | krigVariogramModel | krigNlags | krigWeight | krigAnisotropyScaling | krigAnisotropyAngle | krigCoordinatesType
  | dewPointNthreads | dewPointTolerance
  | stormMassThreshold | marksTimesteps | susongTimesteps | newSnowDensityModel | stormDaysRestart
  | stationAdjust | stationUndercatchDefault | precipTempMethod | precipRescalingModel
  | winstralTbreakNetcdf | winstralVegDefault | winstralVeg (n : Nat) | winstralTbreakThreshold | winstralMinScour | winstralMaxScour
  | winstralMinDrift | winstralMaxDrift | tbreakThreshold
  | windModel | stationPeak | stationDefault | vegDefault | veg (n : Nat) | reductionFactor | maxusNetcdf
  | windNinjaDir | windNinjaDxdy | windNinjaPref | windNinjaTz | windNinjaRoughness | windNinjaHeight
  | grainSize | maxGrain | dirt | decayMethod | dateStart | dateEnd | datePower | dateVegDefault | dateVeg (n : Nat)
  | litterAlbedo | litterDefault | litterVeg (n : Nat)
  | clearSkyMethod | cloudMethod | marksNthreads | correctCloud | correctVeg | correctTerrain
  | other (name : String)
  deriving DecidableEq

/-- The values that decide something. Every other value is `data`. -/
inductive Val where
  | none | bool (b : Bool) | idw | dk | grid | kriging | winstral | windNinja | interp | dateMethod | hardy2000
  | marks1979 | dilley1998 | prata1996 | angstrom1918 | data
  deriving DecidableEq

/-- `if value:`. Numbers and texts that are not empty count as true. -/
def Val.truthy : Val → Bool
  | .none => false
  | .bool b => b
  | _ => true

/-- A section: a dictionary. -/
abbrev Sec := Item → Option Val

/-- The sections modelled. -/
inductive Kind where
  | airTemp | vaporPressure | cloudFactor | precip | wind | albedo | thermal
  deriving DecidableEq

/-- The items that concern the distribution, with their defaults; `d`, `t` are the defaults of `distribution`
and `detrend`. CoreConfig.ini 145-242, 252-359, 372-424 with 475-516, 552-612 with 652-684, 878-978. -/
def common (d t : Val) : Sec
  | .distribution => some d
  | .detrend => some t
  | .stations => some .none
  | .gridMask => some (.bool true)
  | .gridLocal | .krigWeight => some (.bool false)
  | .min | .max | .detrendSlope | .gridMethod | .gridLocalN | .idwPower | .dkNcores | .krigVariogramModel | .krigNlags
  | .krigAnisotropyScaling | .krigAnisotropyAngle | .krigCoordinatesType => some .data
  | _ => none

/-- The items of the section that only vapor pressure has. CoreConfig.ini 305-313. -/
def vaporItems : Sec
  | .dewPointNthreads | .dewPointTolerance => some .data
  | _ => none

/-- The items that only precipitation has. CoreConfig.ini 613-651, 686-762. -/
def precipItems : Sec
  | .stormMassThreshold | .marksTimesteps | .susongTimesteps | .newSnowDensityModel | .stationUndercatchDefault | .precipTempMethod
  | .winstralVegDefault | .winstralTbreakThreshold | .winstralMinScour | .winstralMaxScour | .winstralMinDrift
  | .winstralMaxDrift => some .data
  | .winstralVeg n => if n ∈ [41, 42, 43, 3011, 3061] then some .data else none
  | .stormDaysRestart | .precipRescalingModel | .winstralTbreakNetcdf => some .none
  | .stationAdjust => some (.bool true)
  | _ => none

/-- The items that only wind has. CoreConfig.ini 367-371, 425-474, 518-544. -/
def windItems : Sec
  | .windModel => some .winstral
  | .stationDefault | .vegDefault | .reductionFactor | .windNinjaDxdy | .windNinjaTz | .windNinjaRoughness | .windNinjaHeight => some .data
  | .veg n => if n ∈ [41, 42, 43, 3011, 3061] then some .data else none
  | .stationPeak | .maxusNetcdf | .windNinjaDir | .windNinjaPref => some .none
  | _ => none

/-- The items of albedo. CoreConfig.ini 767-869. -/
def albedoItems : Sec
  | .gridMask => some (.bool true)
  | .min | .max | .grainSize | .maxGrain | .dirt | .datePower | .dateVegDefault | .litterAlbedo | .litterDefault => some .data
  | .dateVeg n | .litterVeg n => if n ∈ [41, 42, 43] then some .data else none
  | .decayMethod | .dateStart | .dateEnd => some .none
  | _ => none

/-- The items of thermal. CoreConfig.ini 1037-1112. -/
def thermalItems : Sec
  | .distribution => some .grid
  | .detrend | .gridLocal => some (.bool false)
  | .gridMask | .correctCloud | .correctVeg | .correctTerrain => some (.bool true)
  | .clearSkyMethod => some .marks1979
  | .min | .max | .detrendSlope | .gridMethod | .cloudMethod | .marksNthreads | .gridLocalN => some .data
  | _ => none

/-- An item of either. -/
def join (a b : Sec) : Sec := fun i => match a i with | some v => some v | none => b i

/-- The items of a section with their defaults. -/
def core : Kind → Sec
  | .airTemp => common .idw (.bool true)
  | .vaporPressure => join (common .idw (.bool true)) vaporItems
  | .cloudFactor => common .idw (.bool false)
  | .precip => join (common .dk (.bool true)) precipItems
  | .wind => join (common .idw (.bool false)) windItems
  | .albedo => albedoItems
  | .thermal => thermalItems

/-- `remove_item = [...]`. -/
def remove (l : List Item) (s : Sec) : Sec := fun i => if i ∈ l then none else s i

/-- `item = value`. -/
def put (i : Item) (v : Option Val) (s : Sec) : Sec := fun j => if j = i then v else s j

/-- `item = default`. -/
def putDefault (over : Bool) (k : Kind) (i : Item) (s : Sec) : Sec :=
  if over = true ∨ s i = none then put i (core k i) s else s

/-- `apply_defaults = True`. -/
def applyDefaults (k : Kind) (s : Sec) : Sec := join s (core k)

/-- `has_value = [section item value]`. -/
def hasValue (i : Item) (v : Val) (s : Sec) : Bool := decide (s i = some v)

/-- A recipe acts if its trigger holds. -/
def recipe (trigger : Sec → Bool) (act : Sec → Sec) (s : Sec) : Sec := if trigger s = true then act s else s

/-- The recipes of precipitation before the one for gridded data. recipes.ini 72-87. -/
def precipRecipes (s : Sec) : Sec :=
  let s := recipe (hasValue .stationAdjust (.bool false)) (remove [.stationUndercatchDefault]) s
  recipe (hasValue .precipRescalingModel .none) (remove [.winstralTbreakNetcdf, .winstralVegDefault, .winstralVeg 41, .winstralVeg 42,
    .winstralVeg 43, .winstralVeg 3061, .winstralTbreakThreshold, .winstralMinScour, .winstralMaxScour, .winstralMinDrift,
    .winstralMaxDrift]) s

/-- The recipes of wind before those for the data. recipes.ini 46-62. -/
def windRecipes (s : Sec) : Sec :=
  let s := recipe (hasValue .windModel .windNinja) (remove [.detrend, .detrendSlope, .stationPeak, .stationDefault, .vegDefault, .veg 41,
    .veg 42, .veg 43, .veg 3011, .veg 3061, .reductionFactor, .gridLocal, .gridLocalN, .gridMask]) s
  recipe (hasValue .windModel .interp) (remove [.maxusNetcdf, .stationPeak, .stationDefault, .vegDefault, .veg 41, .veg 42, .veg 43,
    .veg 3011, .veg 3061, .reductionFactor]) s

/-- The recipes of albedo. recipes.ini 105-131. -/
def albedoRecipes (s : Sec) : Sec :=
  let dates : List Item := [.dateStart, .dateEnd, .datePower, .dateVegDefault, .dateVeg 41, .dateVeg 42, .dateVeg 43]
  let litter : List Item := [.litterAlbedo, .litterDefault, .litterVeg 41, .litterVeg 42, .litterVeg 43]
  let s := recipe (hasValue .decayMethod .none) (remove (dates ++ litter)) s
  let s := recipe (hasValue .decayMethod .dateMethod) (remove litter) s
  recipe (hasValue .decayMethod .hardy2000) (remove dates) s

/-- The recipes of thermal; `netcdf` if the gridded data are of that type. The one for the clear sky has three triggers that exclude
each other, so it never acts if all are needed. recipes.ini 149-175. -/
def thermalRecipes (alt netcdf : Bool) (s : Sec) : Sec :=
  let s := recipe (fun _ => netcdf) (remove [.distribution]) s
  let s := recipe (fun s => alt && (hasValue .clearSkyMethod .dilley1998 s || hasValue .clearSkyMethod .prata1996 s ||
    hasValue .clearSkyMethod .angstrom1918 s)) (remove [.marksNthreads]) s
  recipe (hasValue .correctCloud (.bool false)) (remove [.cloudMethod]) s

/-- The recipe for stations. recipes.ini 211-225. -/
def csvRecipe (k : Kind) (s : Sec) : Sec :=
  match k with
  | .thermal => remove [.distribution, .detrend, .detrendSlope, .gridMethod] s
  | _ => s

/-- The recipe that removes the items of WindNinja. recipes.ini 227-234. -/
def noNinja (alt csv : Bool) (s : Sec) : Sec :=
  recipe (fun s => if alt = true then csv || hasValue .windModel .interp s else csv && hasValue .windModel .interp s)
    (remove [.windNinjaTz, .windNinjaDir, .windNinjaDxdy, .windNinjaPref, .windNinjaHeight, .windNinjaRoughness]) s

/-- The recipe for gridded data. recipes.ini 236-267. -/
def griddedRecipe (k : Kind) (s : Sec) : Sec :=
  match k with
  | .wind => remove [.maxusNetcdf] (put .distribution (some .grid) s)
  | .precip => remove [.stationAdjust, .stationUndercatchDefault] (put .distribution (some .grid) s)
  | .albedo => s
  | _ => put .distribution (some .grid) s

/-- The recipes for every section, from `grid_local_recipe` on. recipes.ini 269-281, 306-350. -/
def anyRecipes (over : Bool) (k : Kind) (s : Sec) : Sec :=
  let s := recipe (hasValue .gridLocal (.bool true)) (putDefault over k .gridLocalN) s
  let s := recipe (hasValue .gridLocal (.bool false)) (remove [.gridLocalN]) s
  let s := recipe (hasValue .distribution .dk) (fun s => remove [.krigVariogramModel, .krigAnisotropyAngle, .krigAnisotropyScaling,
    .krigNlags, .krigWeight, .krigCoordinatesType, .idwPower, .gridMask, .gridLocal, .gridMethod] (putDefault over k .dkNcores s)) s
  let s := recipe (hasValue .distribution .idw) (fun s => remove [.dkNcores, .krigVariogramModel, .krigAnisotropyAngle,
    .krigAnisotropyScaling, .krigNlags, .krigWeight, .krigCoordinatesType, .gridMask, .gridLocal, .gridMethod]
    (putDefault over k .idwPower s)) s
  let s := recipe (hasValue .distribution .kriging) (fun s => putDefault over k .gridMask (putDefault over k .krigCoordinatesType
    (putDefault over k .krigWeight (putDefault over k .krigNlags (putDefault over k .krigAnisotropyScaling
    (putDefault over k .krigAnisotropyAngle (putDefault over k .krigVariogramModel s))))))) s
  recipe (hasValue .distribution .grid) (fun s => remove [.stations, .idwPower, .dkNcores, .krigVariogramModel, .krigAnisotropyAngle,
    .krigAnisotropyScaling, .krigNlags, .krigWeight, .krigCoordinatesType]
    (putDefault over k .gridMethod (putDefault over k .gridLocal (putDefault over k .gridMask s)))) s

/-- The data that the user has. -/
inductive Source where
  | csv | wrf | hrrr | netcdf
  deriving DecidableEq

/-- The section that the program gets, from the section of the user. Data of stations go before gridded data: the recipe for the
section `csv` removes the section `gridded`. Recipes that do not touch the items modelled are left out.
recipes.ini 1-357. -/
def recipes (over alt : Bool) (d : Source) (k : Kind) (u : Sec) : Sec :=
  let s := applyDefaults k u
  let s := match k with
    | .wind => windRecipes s
    | .precip => precipRecipes s
    | .albedo => albedoRecipes s
    | .thermal => thermalRecipes alt (decide (d = .netcdf)) s
    | _ => s
  let s := if d = .csv then csvRecipe k s else s
  let s := if k = .wind then noNinja alt (decide (d = .csv)) s else s
  let s := if d = .csv then s else griddedRecipe k s
  let s := anyRecipes over k s
  if k = .wind then recipe (hasValue .windModel .windNinja) (remove [.distribution, .gridMethod, .gridLocal, .gridMask, .gridLocalN]) s else s

/-- Exceptions: a `KeyError` with the item, a method that is not known, or an attribute of `None`. -/
inductive Err where
  | key (i : Item)
  | attribute
  | method
  deriving DecidableEq

/-- `config[item]`. -/
def need (s : Sec) (i : Item) : Except Err Val := match s i with | some v => .ok v | none => .error (.key i)

/-- The items read one after the other. -/
def needAll (s : Sec) : List Item → Except Err Unit
  | [] => .ok ()
  | i :: l => match need s i with | .error e => .error e | .ok _ => needAll s l

/-- `GRID.__init__`. grid.py 54-55, 81. -/
def initGrid (s : Sec) : Except Err Unit :=
  match need s .gridLocal with
  | .error e => .error e
  | .ok v =>
    match needAll s (if v.truthy = true then [.gridLocalN] else []) with
    | .error e => .error e
    | .ok _ => needAll s [.gridMask]

/-- `_initialize` with the constructors it calls. image_data.py 148-208, kriging.py 40-52, dk.py 32-60. -/
def initDist (s : Sec) : Except Err Unit :=
  match needAll s [.min, .max] with
  | .error e => .error e
  | .ok _ =>
    match s .distribution with
    | none => .ok ()
    | some .idw => needAll s [.idwPower]
    | some .dk => .ok ()
    | some .grid => initGrid s
    | some .kriging => needAll s [.krigVariogramModel, .krigNlags, .krigWeight, .krigAnisotropyScaling, .krigAnisotropyAngle,
        .krigCoordinatesType]
    | some _ => .error .method

/-- `_distribute` with the methods it calls. image_data.py 233-257; dk.py 130, 150; grid.py 107; kriging.py 77, 102. With a method that is
not known there is no value to store (257-260). -/
def runDist (s : Sec) : Except Err Unit :=
  match need s .distribution with
  | .error e => .error e
  | .ok .idw =>
    match need s .detrend with
    | .error e => .error e
    | .ok v => needAll s (if v.truthy = true then [.detrendSlope] else [])
  | .ok .dk => needAll s [.dkNcores, .detrendSlope]
  | .ok .grid =>
    match need s .detrend with
    | .error e => .error e
    | .ok v => needAll s (if v.truthy = true then [.detrendSlope, .gridMethod, .gridLocal] else [.gridMethod])
  | .ok .kriging => needAll s [.detrend]
  | .ok _ => .error .method

/-- The items that vapor pressure reads besides. vapor_pressure.py 140-141, 157-158. -/
def runVapor (s : Sec) : Except Err Unit := needAll s [.dewPointTolerance, .dewPointNthreads]

/-- `Precipitation.initialize` besides the distribution. precipitation.py 133, 166-171, 213-220. -/
def initPrecip (s : Sec) : Except Err Unit :=
  match needAll s [.stormDaysRestart, .stormMassThreshold, .marksTimesteps, .newSnowDensityModel] with
  | .error e => .error e
  | .ok _ =>
    match need s .precipRescalingModel with
    | .error e => .error e
    | .ok v => if v = .winstral then needAll s [.winstralTbreakNetcdf] else .ok ()

/-- `dist_precip_wind`. envphys/precip.py 124-128. -/
def runRescale (s : Sec) : Except Err Unit :=
  needAll s [.tbreakThreshold, .winstralMinScour, .winstralMaxScour, .winstralMinDrift, .winstralMaxDrift]

/-- `Precipitation.distribute` besides the distribution; `cold` is `np.any(dpt < 0.5)`. The default model of the gauges is read if
some station has no model of its own, which is assumed. precipitation.py 272-325, envphys/precip.py 87-90. -/
def runPrecip (s : Sec) (cold : Bool) : Except Err Unit :=
  match need s .distribution with
  | .error e => .error e
  | .ok d =>
    let gauges : Except Err Unit :=
      if d ≠ .grid then
        match need s .stationAdjust with
        | .error e => .error e
        | .ok v => needAll s (if v.truthy = true then [.stationUndercatchDefault] else [])
      else .ok ()
    match gauges with
    | .error e => .error e
    | .ok _ =>
      match need s .precipRescalingModel with
      | .error e => .error e
      | .ok v => if v = .winstral ∧ cold = true then runRescale s else .ok ()

/-- `WinstralWindModel`: constructor, `initialize` and the steps, besides the distribution. winstral.py 86, 138, 242, 325. -/
def runWinstral (s : Sec) : Except Err Unit := needAll s [.maxusNetcdf, .stationDefault, .stationPeak, .reductionFactor]

/-- `WindNinjaModel`: constructor and `initialize`. wind_ninja.py 59-62, 118-122. -/
def runNinja (s : Sec) : Except Err Unit :=
  needAll s [.windNinjaDir, .windNinjaDxdy, .windNinjaPref, .windNinjaTz, .windNinjaHeight, .windNinjaRoughness]

/-- The wind of a run: `Wind.__init__`, `initialize` and `distribute` with the model chosen. WindNinja does not distribute; the others
do. The constructors come before `_initialize`, which comes before the steps; here the items of one part are read
together, so of several missing items another one may be reported first. wind.py 73-93, 134-142, 158-190. -/
def runWind (s : Sec) : Except Err Unit :=
  match s .windModel with
  | some .interp =>
    match initDist s with
    | .error e => .error e
    | .ok _ => runDist s
  | some .windNinja =>
    match runNinja s with
    | .error e => .error e
    | .ok _ => initDist s
  | some .winstral =>
    match runWinstral s with
    | .error e => .error e
    | .ok _ =>
      match initDist s with
      | .error e => .error e
      | .ok _ => runDist s
  | _ => .error .method

/-- The dates of the decay get the time zone of the run. model_framework.py 148-154. -/
def alignDates (s : Sec) : Except Err Unit :=
  match s .dateStart with
  | none => .ok ()
  | some .none => .error .attribute
  | some _ =>
    match need s .dateEnd with
    | .error e => .error e
    | .ok .none => .error .attribute
    | .ok _ => .ok ()

/-- `Albedo` with the sun up: `initialize` and `distribute`; the dictionaries of vegetation classes need their entries `default` and
`albedo`, which come from the items of these names (C108). albedo.py 66-84, 96-102, 121-153; envphys/albedo.py 166-175,
236-237. -/
def runAlbedo (s : Sec) : Except Err Unit :=
  match initDist s with
  | .error e => .error e
  | .ok _ =>
    match needAll s [.grainSize, .maxGrain, .dirt] with
    | .error e => .error e
    | .ok _ =>
      match need s .decayMethod with
      | .error e => .error e
      | .ok .dateMethod => needAll s [.dateStart, .dateEnd, .datePower, .dateVegDefault]
      | .ok .hardy2000 => needAll s [.litterDefault, .litterAlbedo]
      | .ok _ => .ok ()

/-- `Thermal`: constructor, `initialize` and `distribute`. thermal.py 196-214, 236-252, 279-285. -/
def runThermal (s : Sec) : Except Err Unit :=
  match needAll s [.min, .max, .correctVeg, .correctTerrain] with
  | .error e => .error e
  | .ok _ =>
    match need s .correctCloud with
    | .error e => .error e
    | .ok c =>
      match needAll s (if c.truthy = true then [.cloudMethod] else []) with
      | .error e => .error e
      | .ok _ =>
        match need s .clearSkyMethod with
        | .error e => .error e
        | .ok m =>
          match initDist s with
          | .error e => .error e
          | .ok _ => needAll s (if m = .marks1979 then [.marksNthreads] else [])

end Verif.Items
