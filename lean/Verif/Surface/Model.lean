import Verif.Geo.Model
import Verif.Basic.Dict

/-!
# Surface locations (model)

Models `/repo/dedop/proc/sar/algorithms/surface_locations.py`, the part of
`/repo/dedop/model/surface_data.py` that derives values when a surface is created, and
`surface_locations`/`new_surface` of `/repo/dedop/proc/sar/processor.py`, over the real numbers.
Rounding is not modelled.  Where the code would compute with NaN or infinity the model says `nan`.
-/
namespace Dedop.Surface

open Real

/-- Position and velocity vectors (`surface_locations.py:86-140`). -/
abbrev V := EuclideanSpace ℝ (Fin 3)

/-- Values of the configuration files used.  `pi` is the entry of the constants file.
`surface_locations.py:79-97, 142-144, 181, 192-194, 217, 320-325`. -/
structure Conf where
  cst : Geo.Cst
  pi : ℝ
  c : ℝ
  secInDay : ℝ
  freq : ℝ
  pulses : ℝ
  pri : ℝ
  focusing : Bool
  latT : ℝ
  lonT : ℝ
  altT : ℝ

/-- A burst: the attributes of `L1AProcessingData` used here. -/
structure Burst where
  time : ℝ
  surf : V
  sat : V
  lat : ℝ
  lon : ℝ
  alt : ℝ
  vel : V
  altRate : ℝ
  roll : ℝ
  pitch : ℝ
  yaw : ℝ
  win : ℝ
  days : ℝ
  secs : ℝ
  leap : ℝ

/-- The attributes of the algorithm object that make up a location
(`surface_locations.py:13-42`). -/
structure Loc where
  time : ℝ
  surf : V
  lat : ℝ
  lon : ℝ
  alt : ℝ
  sat : V
  latSat : ℝ
  lonSat : ℝ
  altSat : ℝ
  vel : V
  altRate : ℝ
  roll : ℝ
  pitch : ℝ
  yaw : ℝ
  win : ℝ
  prevTai : ℝ
  prevDays : ℝ
  prevSecs : ℝ
  dayLength : ℝ

/-- A surface location (`SurfaceData`): the data it was made from, and what is derived on creation.
`res` is `none` if the resolution is not a number.  `surface_data.py:1063-1139`. -/
structure Surf where
  loc : Loc
  los : V
  res : Option ℝ
  dist : Option ℝ
  focused : Bool

/-- The algorithm object: its location attributes and `focus_found`.  `surface_locations.py:12-83`. -/
structure Alg where
  loc : Loc
  focusFound : Bool

/-- Position vector of geodetic coordinates in radians (`lla2ecef`). -/
noncomputable def ecef (k : Conf) (lat lon alt : ℝ) : V :=
  let q := Geo.lla2ecef k.cst false lat lon alt
  !₂[q.1, q.2.1, q.2.2]

/-- Geodetic coordinates of a position (`ecef2lla`). -/
noncomputable def lla (k : Conf) (v : V) : ℝ × ℝ × ℝ := Geo.ecef2lla k.cst (v 0) (v 1) (v 2)

/-- `normalize` with enough iterations (`Geo.normalize_partial`).  `normalize.py:3-12`. -/
noncomputable def norm (k : Conf) (r : ℝ) : ℝ :=
  (Geo.normalize id k.pi (⌈|r| / (2 * k.pi)⌉₊ + 2) r).getD r

/-- `compute_location_sar_surf` (`l1a_processing_data.py:856-877`), called for every burst read
(`l1a_dataset.py:237`): positions of the satellite and of the point below it at the distance of the
window delay. -/
def Burst.Located (k : Conf) (b : Burst) : Prop :=
  b.sat = ecef k b.lat b.lon b.alt ∧ b.surf = ecef k b.lat b.lon (b.alt - b.win * k.c / 2)

/-- `store_first_location` (`surface_locations.py:83-122`); the last four attributes keep their
values. -/
noncomputable def storeFirst (k : Conf) (l : Loc) (b : Burst) : Loc :=
  let lat := norm k b.lat
  let lon := norm k b.lon
  let alt := b.alt - b.win * k.c / 2
  { l with
    time := b.time, surf := ecef k lat lon alt, lat := lat, lon := lon, alt := alt
    sat := b.sat, latSat := b.lat, lonSat := b.lon, altSat := b.alt, vel := b.vel
    altRate := b.altRate, roll := b.roll, pitch := b.pitch, yaw := b.yaw, win := b.win }

/-- Linear interpolation as written in `surface_locations.py:271-320`. -/
noncomputable def lerp (α p c : ℝ) : ℝ := p + α * (c - p)

/-- The same on vectors, component by component.  `surface_locations.py:232-328`. -/
noncomputable def lerpV (α : ℝ) (p c : V) : V := p + α • (c - p)

/-- Outcome of a computation: NaN or infinite values, or a result.
Floating point results that are not numbers, for `surface_locations.py:100-328`. -/
inductive Num (A : Type) where
  | nan
  | val (a : A)

/-- The new location for a ratio `alpha` (`surface_locations.py:271-326`). -/
noncomputable def interpolate (k : Conf) (p c : Burst) (α : ℝ) : Loc :=
  let surf := lerpV α p.surf c.surf
  let g := lla k surf
  let sat := lerpV α p.sat c.sat
  let gs := lla k sat
  { time := lerp α p.time c.time, surf := surf, lat := g.1, lon := g.2.1, alt := g.2.2
    sat := sat, latSat := gs.1, lonSat := gs.2.1, altSat := gs.2.2
    vel := lerpV α p.vel c.vel
    altRate := lerp α p.altRate c.altRate, roll := lerp α p.roll c.roll
    pitch := lerp α p.pitch c.pitch, yaw := lerp α p.yaw c.yaw
    win := (gs.2.2 - g.2.2) * 2 / k.c
    prevTai := p.time, prevDays := p.days, prevSecs := p.secs
    dayLength := k.secInDay + (c.leap - p.leap) }

/-- Angle at the last surface's satellite position between the direction of that surface and the
direction of a point on the ground (`surface_locations.py:244-252`, `256-264`). -/
noncomputable def angleTo (s : Surf) (ground : V) : Option ℝ :=
  Geo.angleBetween id s.los (ground - s.loc.sat)

open Classical in
/-- `find_new_location` (`surface_locations.py:232-328`) after its list accesses: `none` is the
return value `False`.  A comparison with NaN is false, so that case goes on. -/
noncomputable def findNew (k : Conf) (s : Surf) (p c : Burst) : Num (Option Loc) :=
  match angleTo s c.surf, s.res with
  | some a, some r =>
    if a < r then .val none
    else match angleTo s p.surf with
      | none => .nan
      | some ap => if a = ap then .nan else .val (some (interpolate k p c ((r - ap) / (a - ap))))
  | _, _ => .nan

/-- Position of the focusing target (`surface_locations.py:141-145`, `191-195`). -/
noncomputable def target (k : Conf) : V := ecef k k.latT k.lonT k.altT

/-- `focus_target_distance` (`surface_locations.py:183-196`). -/
noncomputable def targetDistance (k : Conf) (v : V) : ℝ := ‖target k - v‖

open Classical in
/-- `focus_surface` (`surface_locations.py:124-181`): `s` is moved, `p` is the surface before.
Undefined if the two coincide or the target is at `p`. -/
noncomputable def focusSurface (k : Conf) (s p : Surf) : Num Surf :=
  let d := s.loc.surf - p.loc.surf
  let rel := target k - p.loc.surf
  if ‖d‖ = 0 ∨ ‖rel‖ = 0 then .nan
  else
    let along := (1 / ‖d‖) • d
    let cosA := inner ℝ along rel / ‖rel‖
    let pos := p.loc.surf + (‖rel‖ * cosA) • along
    let g := lla k pos
    .val { s with
      focused := true
      loc := { s.loc with
        surf := pos, lat := g.1, lon := g.2.1, alt := g.2.2
        win := (s.loc.altSat - g.2.2) * 2 / k.c } }

/-- `surface_locations.py:218-221`: missing distances are filled in. -/
noncomputable def fillDist (k : Conf) (s : Surf) : Surf :=
  match s.dist with
  | none => { s with dist := some (targetDistance k s.loc.surf) }
  | some _ => s

/-- What a call returns: an exception, NaN somewhere, or the new state of the object, the surfaces
(whose last element may have been moved) and whether a new location was found.  `surface_locations.py:198-230`. -/
inductive Res where
  | err (e : PyErr)
  | nan
  | ok (alg : Alg) (surfs : List Surf) (new : Bool)

/-- `surface_locations.py:211-215`: the new location, if any. -/
noncomputable def locate (k : Conf) (alg : Alg) (surfs : List Surf) (bursts : List Burst)
    (force : Bool) : Except PyErr (Num (Option Loc)) :=
  if surfs = [] ∨ force = true then
    match bursts.getLast? with
    | none => .error .indexError
    | some b => .ok (.val (some (storeFirst k alg.loc b)))
  else
    match surfs.getLast?, bursts.reverse with
    | some s, c :: p :: _ => .ok (findNew k s p c)
    | _, _ => .error .indexError

open Classical in
/-- `surface_locations.py:217-228`: focusing, after a new location was found. -/
noncomputable def focusStep (k : Conf) (alg : Alg) (surfs : List Surf) : Num (Bool × List Surf) :=
  if k.focusing = false then .val (alg.focusFound, surfs)
  else
    let surfs := surfs.map (fillDist k)
    match surfs.reverse with
    | s :: p :: rest =>
      match s.dist with
      | none => .nan
      | some d =>
        if alg.focusFound = false ∧ targetDistance k alg.loc.surf - d > 0 then
          match focusSurface k s p with
          | .nan => .nan
          | .val s' => .val (true, (s' :: p :: rest).reverse)
        else .val (alg.focusFound, surfs)
    | _ => .val (alg.focusFound, surfs)

/-- `__call__` (`surface_locations.py:198-230`). -/
noncomputable def call (k : Conf) (alg : Alg) (surfs : List Surf) (bursts : List Burst)
    (force : Bool) : Res :=
  match locate k alg surfs bursts force with
  | .error e => .err e
  | .ok .nan => .nan
  | .ok (.val none) => .ok alg surfs false
  | .ok (.val (some l)) =>
    let alg := { alg with loc := l }
    match focusStep k alg surfs with
    | .nan => .nan
    | .val (f, surfs) => .ok { alg with focusFound := f } surfs true

open Classical in
/-- `compute_angular_azimuth_beam_resolution` (`surface_data.py:1112-1118`). -/
noncomputable def resolution (k : Conf) (vel : V) : Option ℝ :=
  let d := 2 * k.freq * ‖vel‖ * k.pulses * k.pri
  if d = 0 then none
  else if -1 ≤ k.c / d ∧ k.c / d ≤ 1 then some (arcsin (k.c / d)) else none

/-- `get_surface` (`surface_locations.py:47-81`) and `new_surface` (`processor.py:552-566`). -/
noncomputable def makeSurf (k : Conf) (l : Loc) : Surf where
  loc := l
  los := l.surf - l.sat
  res := resolution k l.vel
  dist := if k.focusing then some (targetDistance k l.surf) else none
  focused := false

/-- `surface_locations` of the processor (`processor.py:360-372`): the burst is added, the algorithm
called and a new surface appended. -/
noncomputable def step (k : Conf) (alg : Alg) (surfs : List Surf) (bursts : List Burst) (b : Burst)
    (force : Bool) : Res :=
  match call k alg surfs (bursts ++ [b]) force with
  | .ok alg surfs true => .ok alg (surfs ++ [makeSurf k alg.loc]) true
  | r => r

end Dedop.Surface
