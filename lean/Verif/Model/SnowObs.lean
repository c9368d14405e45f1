import Verif.Model.MassBalance
import Mathlib.Data.List.Sort
import Mathlib.Data.List.Dedup
import Mathlib.Algebra.Order.Field.Basic

/-!
# Observed and simulated snow cover (Python side)

`SnowCoverObservations` (python/src/hydrobricks/evaluation/snow_cover.py): loading, aggregation of rasters per hydro unit, cache, and the
simulated values computed from the recorded snowpacks.

Simplifications.  NaN is `none`, infinite values do not occur.  Dates are seconds.  The pixels of a raster are a list; opening, mosaic and
reprojection of the files are inputs (`Source.grid`).  CSV columns are already parsed.  The SHA-256 key of the cache is taken as free of
collisions: the key is the hashed data.
-/

namespace HB.SnowObs

section
variable {K : Type}

/-- A target (86-90): date, unit and value. -/
structure Target (K : Type) where
  t : ℤ
  unitId : ℤ
  value : K
deriving DecidableEq

/-- `observed` (820-822). -/
def observed (ts : List (Target K)) : List K := ts.map Target.value

/-- `restrict_to_period` (907-929). -/
def restrict (start stop : Option ℤ) (l : List (Target K)) : List (Target K) :=
  l.filter fun t => !((start.any fun s => decide (t.t < s)) || (stop.any fun e => decide (e < t.t)))

/-- `_add_targets` (955-969): rows with a missing field are dropped. -/
def addTargets (rows : List (Option ℤ × Option ℤ × Option K)) : List (Target K) :=
  rows.filterMap fun r => r.1.bind fun t => r.2.1.bind fun u => r.2.2.map fun v => ⟨t, u, v⟩

/-- `to_csv` (935-947). -/
def toCsv (ts : List (Target K)) : List (Option ℤ × Option ℤ × Option K) := ts.map fun t => (some t.t, some t.unitId, some t.value)

end

section
variable {K : Type} [Field K] [LinearOrder K]

/-- The conditions of `from_csv` on a raw value (197-201), then the scale. -/
def csvValue (scale : K) (vmin vmax : Option K) (raw : Option K) : Option K :=
  (raw.filter fun v => (vmin.all fun m => decide (m ≤ v)) && (vmax.all fun m => decide (v ≤ m))).map fun v => v * scale

/-- `from_csv` (135-217). -/
def fromCsv (scale : K) (vmin vmax : Option K) (start stop : Option ℤ) (rows : List (Option ℤ × Option ℤ × Option K)) : List (Target K) :=
  restrict start stop (addTargets (rows.map fun r => (r.1, r.2.1, csvValue scale vmin vmax r.2.2)))

/-! ## Simulated values -/

/-- `_swe_to_fraction` (64-74). -/
def sweToFraction (full : K) : Option K → K
  | none => 0
  | some s => min (max (s / full) 0) 1

/-- What the run has recorded: the first day and the number of days, the units, the land covers of the model, the snow of the snowpacks and the
fractions of the covers, by name, row and day (python/src/hydrobricks/models/model.py:536-618). -/
structure Recorded (K : Type) where
  start : ℤ
  n : ℕ
  ids : List ℤ
  covers : List String
  snow : String → Option (ℕ → ℕ → Option K)
  fraction : String → Option (ℕ → ℕ → Option K)

inductive Err | noSnowpack | noFraction
deriving DecidableEq

/-- `covers = self.land_covers or list(model.land_cover_names)` (860): an empty list counts as none. -/
def usedCovers (wanted : Option (List String)) (r : Recorded K) : List String :=
  match wanted with
  | some (c :: cs) => c :: cs
  | _ => r.covers

/-- The covers whose snowpack is recorded, with their snow and fractions (870-878). -/
def contributions (r : Recorded K) : List String → Except Err (List ((ℕ → ℕ → Option K) × (ℕ → ℕ → Option K)))
  | [] => .ok []
  | c :: cs =>
    match r.snow c with
    | none => contributions r cs
    | some s =>
      match r.fraction c with
      | none => .error .noFraction
      | some f => (contributions r cs).map fun l => (s, f) :: l

/-- `unit_scf` (879-895). -/
def unitCover (full : K) (l : List ((ℕ → ℕ → Option K) × (ℕ → ℕ → Option K))) (row day : ℕ) : Option K :=
  let covered := (l.map fun c => (c.2 row day).getD 0 * sweToFraction full (c.1 row day)).sum
  let total := (l.map fun c => (c.2 row day).getD 0).sum
  if 0 < total then some (covered / total) else none

/-- `id_to_row` (897): the last row of an id. -/
def rowOf (ids : List ℤ) (u : ℤ) : Option ℕ := ids.zipIdx.foldl (fun acc p => if p.1 = u then some p.2 else acc) none

/-- `simulated` (837-905) for one target. -/
def simulatedOne (full : K) (r : Recorded K) (l : List ((ℕ → ℕ → Option K) × (ℕ → ℕ → Option K))) (t : Target K) : Option K :=
  (rowOf r.ids t.unitId).bind fun row => (MassBalance.dateIndex r.start r.n t.t).bind fun day => unitCover full l row day

/-- `simulated` (837-905). -/
def simulated (full : K) (wanted : Option (List String)) (r : Recorded K) (ts : List (Target K)) : Except Err (List (Option K)) :=
  if ts.isEmpty then .ok []
  else (contributions r (usedCovers wanted r)).bind fun l =>
    if l.isEmpty then .error .noSnowpack else .ok (ts.map (simulatedOne full r l))

/-! ## Aggregation of rasters -/

/-- Options of the aggregation. -/
structure Opts (K : Type) where
  scale : K
  nodata : Option K
  vmin : Option K
  vmax : Option K
  ratio : K

/-- `valid` (1129-1135, 1357-1363). -/
def Opts.valid (o : Opts K) (x : Option K) : Option K :=
  x.filter fun v => (o.nodata.all fun d => decide (v ≠ d)) && (o.vmin.all fun m => decide (m ≤ v)) && (o.vmax.all fun m => decide (v ≤ m))

/-- The ids of the units (1113-1120, 1325-1332): given, or the positive values of the raster, sorted. -/
def unitIds (arr : List (Option ℤ)) (nodata : Option ℤ) : Option (List ℤ) → List ℤ
  | some l => l
  | none => ((arr.filterMap id).dedup.filter fun u => decide (0 < u) && decide (nodata ≠ some u)).insertionSort (· ≤ ·)

/-- The aggregate from the valid values of the unit and its number of pixels (1136-1142). -/
def aggregate (o : Opts K) (good : List K) (pixels : ℕ) : Option K :=
  if 0 < good.length ∧ o.ratio ≤ (good.length : K) / (pixels : K) then some (good.sum / (good.length : K) * o.scale) else none

/-- `_aggregate_stack` (1091-1143), for one date and unit. -/
def stackCell (o : Opts K) (arr : List (Option ℤ)) (vals : List (Option K)) (uid : ℤ) : Option K :=
  let sub := (arr.zip vals).filter fun p => decide (p.1 = some uid)
  if sub.isEmpty then none else aggregate o (sub.filterMap fun p => o.valid p.2) sub.length

/-- `label` (1335-1337): position in the list of ids, the last one. -/
def label (ids : List ℤ) (p : Option ℤ) : Option ℕ := ids.zipIdx.foldl (fun acc q => if p = some q.1 then some q.2 else acc) none

/-- `_aggregate_modis` (1270-1381), for one date and column. -/
def modisCell (o : Opts K) (arr : List (Option ℤ)) (ids : List ℤ) (vals : List (Option K)) (j : ℕ) : Option K :=
  let good := (arr.zip vals).filterMap fun p => if label ids p.1 = some j then o.valid p.2 else none
  let pixels := (arr.filter fun p => decide (label ids p = some j)).length
  let mean := good.sum / (good.length : K)
  let share : K := if 0 < pixels then (good.length : K) / (pixels : K) else 0
  if 0 < good.length ∧ o.ratio ≤ share then some (mean * o.scale) else none

/-- `_build` (728-772). -/
def build (times : List ℤ) (ids : List ℤ) (matrix : ℕ → ℕ → Option K) (start stop : Option ℤ) : List (Target K) :=
  restrict start stop (times.zipIdx.flatMap fun t => ids.zipIdx.filterMap fun u => (matrix t.2 u.2).map fun v => ⟨t.1, u.1, v⟩)

/-! ## Loaders and cache -/

/-- The input files: a stack with its times, or tiles with names.  `grid` gives the values on the raster of the units: of the time number `i` of a
stack, or of the mosaic of the tiles of the given names. -/
inductive Source (K : Type) where
  | stack (times : List ℤ) (grid : ℕ → List (Option K))
  | tiles (names : List String) (grid : List String → List (Option K))

/-- What the key of the cache is made of (1233-1251; 491-510 and 673-687): the raster of the units, the options, the files. -/
structure Key (K : Type) where
  arr : List (Option ℤ)
  nodata : Option ℤ
  opts : Opts K
  start : Option ℤ
  stop : Option ℤ
  source : Source K

/-- A request: the key, and the arguments that are not in it: the hydro units and the reading of dates in file names. -/
structure Request (K : Type) where
  key : Key K
  units : Option (List ℤ)
  dateOf : String → ℤ

/-- The dates of the tiles (1304-1317): those of the period, without repetition, sorted. -/
def tileDates (q : Request K) (names : List String) : List ℤ :=
  (((names.map q.dateOf).filter fun d => !((q.key.start.any fun s => decide (d < s)) || (q.key.stop.any fun e => decide (e < d)))).dedup).insertionSort
    (· ≤ ·)

/-- What a loader computes without cache (`_from_stack` 522-555, `from_modis` 691-724). -/
def fresh (q : Request K) : List (Target K) :=
  let ids := unitIds q.key.arr q.key.nodata q.units
  match q.key.source with
  | .stack times grid => build times ids (fun i j => (ids[j]?).bind fun u => stackCell q.key.opts q.key.arr (grid i) u) q.key.start q.key.stop
  | .tiles names grid =>
    let times := tileDates q names
    build times ids (fun i j => (times[i]?).bind fun d =>
      modisCell q.key.opts q.key.arr ids (grid (names.filter fun f => decide (q.dateOf f = d))) j) q.key.start q.key.stop

open Classical in
/-- A loader with a cache directory (`_cache_lookup` 775-807, `_cache_save` 809-815): the answer, and the cache afterwards. -/
noncomputable def load (cache : Key K → Option (List (Option ℤ × Option ℤ × Option K))) (q : Request K) :
    List (Target K) × (Key K → Option (List (Option ℤ × Option ℤ × Option K))) :=
  match cache q.key with
  | some rows => (fromCsv 1 none none none none rows, cache)
  | none => (fresh q, if (fresh q).isEmpty then cache else Function.update cache q.key (some (toCsv (fresh q))))

/-- A sequence of requests with the same cache directory, empty at first. -/
noncomputable def loads : (Key K → Option (List (Option ℤ × Option ℤ × Option K))) → List (Request K) → List (List (Target K))
  | _, [] => []
  | cache, q :: qs => (load cache q).1 :: loads (load cache q).2 qs

end
end HB.SnowObs
