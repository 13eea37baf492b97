import Verif.Model.LensCosmo
import Verif.Model.HaloObject
import Verif.Model.MassLoss

/-!
# Truncation radii

Models `pyHalo/Halos/tidal_truncation.py` and the truncation part of `TNFWSubhalo`
(`pyHalo/Halos/HaloModels/TNFW.py` 267-348).  `compute_r_te_and_f_t` is a parameter here.
-/

namespace PyHalo
namespace Trunc
open LensCosmo HaloObj

/-- `TruncationRN.truncation_radius`, `tidal_truncation.py` 67-77. -/
noncomputable def rn (e : Env) (N mass z : ℝ) : ℝ := rNM e (mass * e.h) z N * 1000

/-- `TruncationSplashBack.truncation_radius`, `tidal_truncation.py` 30-44; `ratio` is colossus'
splashback radius in units of `r200m`. -/
noncomputable def splashback (e : Env) (ratio mass z : ℝ) : ℝ :=
  let r200m := rNM e (mass * e.h) z 200 / e.Om0 ^ (1 / 3 : ℝ)
  ratio * r200m * 1e3

/-- The radius `r200m` used there, in kpc. `tidal_truncation.py` 30-44. -/
noncomputable def splashbackUnit (e : Env) (mass z : ℝ) : ℝ :=
  rNM e (mass * e.h) z 200 / e.Om0 ^ (1 / 3 : ℝ) * 1e3

/-- The formula of `TruncationRoche`, `tidal_truncation.py` 114-116, before rounding. -/
noncomputable def rocheExact (norm mPower r3dPower mass r3d : ℝ) : ℝ :=
  norm * (mass / 10 ^ 7) ^ mPower * (r3d / 50) ^ r3dPower

/-- `TruncationRoche.truncation_radius`, `tidal_truncation.py` 107-117: rounded to three decimals. -/
noncomputable def roche (norm mPower r3dPower mass r3d : ℝ) : ℝ :=
  (Np.rint (1000 * rocheExact norm mPower r3dPower mass r3d) : ℝ) / 1000

/-- `TruncateMeanDensity.truncation_radius`, `tidal_truncation.py` 151-168, with the normal variate
`u`; `rs` is the scale radius of the halo. -/
noncomputable def meanDensity (norm cPower scatter rs cMedian cActual u : ℝ) : ℝ :=
  let x := norm * (cActual / cMedian) ^ cPower
  let y := if scatter > 0 then |x + scatter * x * u| else x
  rs * y

/-- `Multiple_RS`, `tidal_truncation.py` 170-183. -/
noncomputable def multipleRs (tau rs : ℝ) : ℝ := tau * rs

/-! ## Subhalos -/

/-- The names of truncation classes that matter to `TNFWSubhalo`. `TNFW.py` 306-349. -/
inductive Name
  | galacticus
  | zinfall
  | keeley24
  | approxCDM
  | milkyWay
  | other
  deriving DecidableEq

/-- What a subhalo asks of its truncation class. `TNFW.py` 306-349. -/
structure SubI where
  name : Name
  /-- `calculate_mbound`, as a function of the random variate of the draw -/
  mbound : ℝ → ℝ
  /-- `compute_r_te_and_f_t` for this halo, as a function of the bound mass -/
  rte : ℝ → ℝ × ℝ
  /-- `truncation_radius_halo` of a class that is not based on a bound mass -/
  otherRadius : ℝ → ℝ

/-- The attributes of a subhalo used here, and how many random variates have been drawn. `TNFW.py` 306-349. -/
structure Sub where
  mbound : Option ℝ
  radius : Option ℝ
  norm : Norm
  drawn : ℕ

/-- A new subhalo. `TNFW.py` 267-304. -/
def Sub.new : Sub := ⟨none, none, .fresh, 0⟩

/-- `TNFWSubhalo.simple_setup`, `TNFW.py` 272-303: the bound mass is assigned. -/
def Sub.simple (m : ℝ) : Sub := ⟨some m, none, .fresh, 0⟩

/-- `bound_mass_galacticus_definition`, `TNFW.py` 319-334. `ω` is the stream of variates. -/
noncomputable def Sub.readBound (I : SubI) (ω : ℕ → ℝ) (s : Sub) : Except Err (Sub × ℝ) :=
  if I.name = .galacticus ∨ I.name = .zinfall ∨ I.name = .keeley24 ∨ I.name = .approxCDM then
    match s.mbound with
    | some m => .ok (s, m)
    | none =>
      let m := I.mbound (ω s.drawn)
      .ok ({ s with mbound := some m, drawn := s.drawn + 1 }, m)
  else .error (.exception
    "this method can only be called when using one of the TruncationGalacticus class")

/-- `truncation_radius_halo` of the classes based on a bound mass, `tidal_truncation.py` 316-335,
424-443, 528-544, 666-685: a fresh draw, the radius, and the rescaling of the normalisation. -/
noncomputable def Sub.radiusHalo (I : SubI) (ω : ℕ → ℝ) (s : Sub) : Sub × ℝ :=
  match I.name with
  | .keeley24 | .other => ({ s with drawn := s.drawn + 1 }, I.otherRadius (ω s.drawn))
  | _ =>
    let (r, f) := I.rte (I.mbound (ω s.drawn))
    ({ s with norm := (s.norm.rescale f false true).1, drawn := s.drawn + 1 }, r)

/-- `profile_args`, `TNFW.py` 336-348: the truncation radius. -/
noncomputable def Sub.readRadius (I : SubI) (ω : ℕ → ℝ) (s : Sub) : Except Err (Sub × ℝ) :=
  match s.radius with
  | some r => .ok (s, r)
  | none =>
    if I.name = .galacticus then do
      let (s, m) ← s.readBound I ω
      let (r, f) := I.rte m
      pure ({ s with norm := (s.norm.rescale f false true).1, radius := some r }, r)
    else
      let (s, r) := s.radiusHalo I ω
      .ok ({ s with radius := some r }, r)

/-- What a user can read. `TNFW.py` 306-349. -/
inductive Read
  | bound
  | radius

/-- One read; a read that raises leaves the object as it was. `TNFW.py` 306-349. -/
noncomputable def Sub.read (I : SubI) (ω : ℕ → ℝ) (s : Sub) : Read → Sub
  | .bound => match s.readBound I ω with
    | .ok (s', _) => s'
    | .error _ => s
  | .radius => match s.readRadius I ω with
    | .ok (s', _) => s'
    | .error _ => s

/-- A sequence of reads. `TNFW.py` 306-349. -/
noncomputable def Sub.run (I : SubI) (ω : ℕ → ℝ) (s : Sub) (rs : List Read) : Sub :=
  rs.foldl (fun s r => s.read I ω r) s

end Trunc
end PyHalo
