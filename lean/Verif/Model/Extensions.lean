import Verif.Model.Realization
import Verif.Model.Sidm

/-!
# Replacing halos of a realization

Models the routines of `pyHalo/realization_extensions.py` that turn the halos of a realization into
other profiles.  Halo objects and their profile dictionaries are shared by reference, so both live in
a store.
-/

namespace PyHalo
namespace Ext

/-- The classes of halo objects that occur here. Imported in `realization_extensions.py` 1-26. -/
inductive Cls
  | tnfw
  | evolving
  | parametric
  | composite
  | compositeBH
  | coreNFW
  | gnfw
  | powerLaw
  | sis
  | massiveGalaxy
  | other
  deriving DecidableEq

/-- The mass definition each class hands to the base class: `TNFW.py` 31, `NFW_core_trunc.py` 29,
`core_collapsed_halo.py` 28, `NFW_core.py` 24, `generalized_nfw.py` 22, `powerlaw.py` 20, `sis.py` 19
and 77. `other` stands for all remaining classes. -/
def Cls.mdef : Cls → String
  | tnfw => "TNFW"
  | evolving | parametric => "TNFWC"
  | composite | compositeBH => "CORE_COLLAPSED"
  | coreNFW => "CNFW"
  | gnfw => "PSEUDO_DPL"
  | powerLaw => "SPL_CORE"
  | sis => "SIS"
  | massiveGalaxy => "GNFW"
  | other => ""

/-- `lenstronomy_ID` of the classes. E.g. `TNFW.py` 166-171, `sis.py` 52-56 and 160-164, `NFW_core_trunc.py` 117-121. -/
def Cls.lensIDs : Cls → List String
  | tnfw => ["TNFW"]
  | evolving | parametric => ["TNFWC"]
  | composite => ["CORE_COLLAPSED_HALO"]
  | compositeBH => ["CORE_COLLAPSED_HALO_BH"]
  | coreNFW => ["CNFW"]
  | gnfw | massiveGalaxy => ["PSEUDO_DPL"]
  | powerLaw => ["SPL_CORE"]
  | sis => ["SIS"]
  | other => []

/-- A halo object: what a realization reads (`Halo`), its class, a reference to its profile
dictionary, `_z_infall` if it has been set, whether `bound_mass` can be read, and the attributes (or
properties) `halo_effective_age` and `t_over_tc` if the SIDM conversion has attached them. `halo_base.py` 10-47. -/
structure Obj extends Halo where
  cls : Cls
  args : ℕ
  zInfall : Option ℝ
  hasBound : Bool
  note : Option (ℝ × ℝ)

/-- The store: objects and profile dictionaries, with the next free identities.
The objects made in `realization_extensions.py` 42-924. -/
structure Store where
  obj : Oid → Obj
  next : Oid
  dict : ℕ → Kw
  nextDict : ℕ

/-- What `Realization` sees of the store. `single_realization.py` 97-124. -/
def Store.heap (s : Store) : Heap := fun i => (s.obj i).toHalo

/-- A new object. E.g. `realization_extensions.py` 60-66. -/
def Store.alloc (s : Store) (o : Obj) : Store × Oid :=
  ({ s with obj := Function.update s.obj s.next o, next := s.next + 1 }, s.next)

/-- A new object with a new dictionary. E.g. `realization_extensions.py` 274-290. -/
def Store.allocWith (s : Store) (o : Obj) (d : Kw) : Store × Oid :=
  let s : Store := { s with dict := Function.update s.dict s.nextDict d, nextDict := s.nextDict + 1 }
  s.alloc { o with args := s.nextDict - 1 }

/-- `halo.halo_effective_age = …; halo.t_over_tc = …`. `realization_extensions.py` 372-618. -/
def Store.attach (s : Store) (h : Oid) (age ratio : ℝ) : Store :=
  { s with obj := Function.update s.obj h { s.obj h with note := some (age, ratio) } }

/-- The properties of halo objects that are computed elsewhere, as functions of the object (their
computation and caching is modelled in other files). Read in `realization_extensions.py` 308-924. -/
structure Phys where
  A : AstropyI
  /-- `profile_args[1]` of a truncated NFW halo -/
  rt : Obj → Except Err ℝ
  /-- `c` -/
  conc : Obj → Except Err ℝ
  /-- `mass_3d('r200')` -/
  massR200 : Obj → ℝ
  /-- `nfw_params` -/
  nfw : Obj → Except Err (ℝ × ℝ × ℝ)
  /-- `mass_3d(r)` -/
  mass3d : Obj → ℝ → ℝ
  /-- `log_derivative_inverse(slope, rs, rt)` -/
  logDerivInv : ℝ → ℝ → ℝ → Except Err ℝ
  /-- `z_eval` -/
  zEval : Obj → ℝ
  /-- `z_infall` -/
  zInfall : Obj → ℝ
  /-- whether the object has `_truncation_class` and `_concentration_class` -/
  hasClasses : Obj → Bool
  /-- `lenstronomy_params[0]` of a new object of a class with a given profile dictionary, at a given
  place -/
  lensParams : Cls → Kw → Halo → List Kw

/-- The body shared by the constructor calls `Model(halo.mass, halo.x, halo.y, halo.r3d, halo.z,
halo.is_subhalo, halo.lens_cosmo, args, …, halo.unique_tag)` (`realization_extensions.py` 434-455,
466-477, 499-505, 533-543, 562-584): the new object carries everything but the fixed-position flag,
which falls back to its default (`halo_base.py` 11), the infall redshift and the bound mass, which can
not be read before it is set (`halo_base.py` 177-183; the field keeps the old number). The base class
asserts `z > 0`, which held when the old object was made. `lensParams` is what `lenstronomy_params`
will return. -/
noncomputable def newObj (P : Phys) (o : Obj) (cls : Cls) (d : Kw) : Obj :=
  { o with
    mdef := cls.mdef
    fixedPosition := false
    lensIDs := cls.lensIDs
    lensParams := P.lensParams cls d o.toHalo
    cls := cls
    zInfall := none
    hasBound := false
    note := none }

/-- `if halo.is_subhalo: new.set_infall_redshift(halo.z_eval); new.set_bound_mass(halo.bound_mass)`,
`realization_extensions.py` 455-457, 478-480, 508-510, 545-547, 588-590. -/
noncomputable def carryInfall (P : Phys) (o new : Obj) : Obj :=
  if o.isSubhalo then
    { new with zInfall := some (P.zEval o), boundMass := o.boundMass, hasBound := true }
  else new

/-- The arguments of `toSIDM_single_halo`, `realization_extensions.py` 372-384. -/
structure SidmArgs where
  tc : Option ℝ := none
  scaling : Option ℝ := none
  xCore : Option ℝ := none
  cut : ℝ := 0.15
  evolving : Bool := true
  prob : ℝ := 1
  profile : String := "TNFWC"
  gammaInner : ℝ := 2.6
  scaleMatch : ℝ := 1.6
  slopeMatch : ℝ := -1.9
  tOverTc : Option ℝ := none
  threshold : ℝ := 1

/-- The profile dictionary of a composite halo and its class, `realization_extensions.py` 417-433 and
551-573. -/
noncomputable def compositeArgs (P : Phys) (a : SidmArgs) (o : Obj) (rt : ℝ) :
    Except Err (Kw × Cls) := do
  let (_, rs, r200) ← P.nfw o
  let rm ← P.logDerivInv a.slopeMatch rs rt
  let (g, cls) := if a.gammaInner = -1 then ((2.6 : ℝ), Cls.compositeBH)
    else (a.gammaInner, Cls.composite)
  pure ([("gamma_inner", g), ("gamma_outer", 6), ("rt_kpc", rt), ("m_target_r200", P.mass3d o r200),
    ("m_target_R", a.scaleMatch * P.mass3d o rm), ("r_match_kpc", rm), ("Rs_inner_kpc", rm)], cls)

/-- Collapse time and subhalo scaling of the evolving branch, `realization_extensions.py` 485-496.
(The last case cannot occur: the branch is entered when one of the two is given.) -/
noncomputable def timescale (P : Phys) (a : SidmArgs) (o : Obj) : Except Err (ℝ × Option ℝ) :=
  match a.tOverTc with
  | some t => do
    let age ← Batch.haloAge P.A o.z 10
    pure (age / t, some 1)
  | none =>
    match a.tc with
    | some tc => .ok (tc, if o.isSubhalo then a.scaling else some 1)
    | none => .error (.typeError "unsupported operand")

/-- `halo_effective_age` of the new object, `NFW_core_trunc.py` 215-224 and
`core_collapsed_halo.py` 231-241: the infall redshift has been set to `z_eval` of the old object. -/
noncomputable def newAge (P : Phys) (o : Obj) (lambda : Option ℝ) : Except Err ℝ :=
  match lambda with
  | none => .error (.typeError "unsupported operand")
  | some l => ({ z := o.z, isSub := o.isSubhalo, zInfall := P.zEval o, lambdaT := l } :
      Batch.SidmHalo).age P.A

/-- `toSIDM_single_halo`, `realization_extensions.py` 372-618. `u` is the uniform variate (used only
if it is reached). A missing `x_core_halo` is left out of the dictionary instead of being `None`. -/
noncomputable def toSidm (P : Phys) (a : SidmArgs) (s : Store) (h : Oid) (u : ℝ) :
    Except Err (Store × Oid) := do
  let o := s.obj h
  if o.mdef ≠ "TNFW" then throw .assertionError
  let rt ← P.rt o
  let _ ← P.conc o
  if a.tc = none ∧ a.tOverTc = none then
    if a.profile = "CC_COMPOSITE" then
      let (d, cls) ← compositeArgs P a o rt
      pure (s.allocWith (carryInfall P o (newObj P o cls d)) d)
    else if a.profile = "TNFWC" then
      match a.xCore with
      | none => throw .assertionError
      | some x =>
        let d : Kw := [("x_core_halo", x), ("mass_conservation", P.massR200 o), ("rt_kpc", rt)]
        pure (s.allocWith (carryInfall P o (newObj P o .parametric d)) d)
    else throw (.valueError "halo_profile should be either TNFWC or CC_COMPOSITE")
  else if a.profile = "TNFWC" then
    let (ts, lambda) ← timescale P a o
    let d : Kw := [("sidm_timescale", ts), ("lambda_t", lambda.getD 0),
      ("mass_conservation", P.massR200 o), ("rt_kpc", rt)]
    let age ← newAge P o lambda
    let ratio := age / ts
    if a.evolving then
      if ratio < a.cut then pure (s.attach h age ratio, h)
      else if a.prob < u then pure (s.attach h age ratio, h)
      else pure (s.allocWith { carryInfall P o (newObj P o .evolving d) with note := some (age, ratio) } d)
    else
      if ratio < a.threshold then pure (s.attach h age ratio, h)
      else if a.prob < u then pure (s.attach h age ratio, h)
      else
        let d : Kw := (match a.xCore with
          | some x => [("x_core_halo", x)]
          | none => []) ++ [("mass_conservation", P.massR200 o), ("rt_kpc", rt)]
        pure (s.allocWith { carryInfall P o (newObj P o .parametric d) with note := some (age, ratio) } d)
  else if a.profile = "CC_COMPOSITE" then
    let (d, cls) ← compositeArgs P a o rt
    let lambda := if o.isSubhalo then a.scaling else some 1
    let age ← newAge P o lambda
    match a.tc with
    | none => throw (.typeError "unsupported operand")
    | some tc =>
      let d := d ++ [("sidm_timescale", tc), ("lambda_t", lambda.getD 0)]
      let ratio := age / tc
      if ratio < a.threshold then pure (s.attach h age ratio, h)
      else if a.prob < u then pure (s.attach h age ratio, h)
      else pure (s.allocWith { carryInfall P o (newObj P o cls d) with note := some (age, ratio) } d)
  else throw (.valueError "halo_profile should be either TNFWC or CC_COMPOSITE")

/-- The loops `for halo in halos: … new_halos.append(new_halo)`; `ι` carries what differs from halo
to halo (index, variates). E.g. `realization_extensions.py` 42-70, 308-370. -/
def mapHalos {ι : Type} (f : Store → Oid → ι → Except Err (Store × Oid)) :
    Store → List (Oid × ι) → Except Err (Store × List Oid)
  | s, [] => .ok (s, [])
  | s, (h, i) :: rest => do
    let (s, h') ← f s h i
    let (s, hs) ← mapHalos f s rest
    pure (s, h' :: hs)

/-- The end of the conversion routines, e.g. `realization_extensions.py` 359-370: a realization from
the new halos that remembers whether the old one was shifted. -/
noncomputable def finish (r : Realization) (p : Store × List Oid) : Store × Realization :=
  (p.1, { Realization.rebuild p.1.heap r p.2 with hasBeenShifted := r.hasBeenShifted })

/-- `toSIDM_halo_list`, `realization_extensions.py` 308-370; one variate per halo. -/
noncomputable def toSidmList (P : Phys) (a : SidmArgs) (s : Store) (r : Realization)
    (halos : List (Oid × ℝ)) : Except Err (Store × Realization) := do
  let p ← mapHalos (fun s h u => toSidm P { a with threshold := 1 } s h u) s halos
  pure (finish r p)

/-- The bin loop of `toSIDM_from_timescale` and `toSIDM_from_cross_section`,
`realization_extensions.py` 656-664 and 726-731: index of the first bin containing `log10 mass`. -/
noncomputable def findBin (mass : ℝ) : ℕ → List (ℝ × ℝ) → Option ℕ
  | _, [] => none
  | i, b :: bs =>
    if Real.logb 10 mass ≥ b.1 ∧ Real.logb 10 mass < b.2 then some i else findBin mass (i + 1) bs

/-- Python list indexing with a non-negative index. E.g. `realization_extensions.py` 308-370. -/
def idx {α : Type} (l : List α) (i : ℕ) : Except Err α :=
  match l[i]? with
  | some a => .ok a
  | none => .error .indexError

/-- The collapse time drawn for a halo in bin `i`, `realization_extensions.py` 658-662; `n` is the
standard normal variate. -/
noncomputable def drawTimescale (tcs : List ℝ) (sigmas : Option (List ℝ)) (i : ℕ) (n : ℝ) :
    Except Err ℝ :=
  match sigmas with
  | none => do
    let mu ← idx tcs i
    pure ((10 : ℝ) ^ mu)
  | some l => do
    let mu ← idx tcs i
    let sg ← idx l i
    if sg < 0 then throw (.valueError "scale < 0")
    pure ((10 : ℝ) ^ (mu + sg * n))

/-- One turn of the loop of `toSIDM_from_timescale`, `realization_extensions.py` 655-681. `v` are the
normal and the uniform variate. -/
noncomputable def timescaleStep (P : Phys) (a : SidmArgs) (bins : List (ℝ × ℝ)) (tcs : List ℝ)
    (sigmas : Option (List ℝ)) (logScaling : ℝ) (s : Store) (h : Oid) (v : ℝ × ℝ) :
    Except Err (Store × Oid) :=
  match findBin (s.obj h).mass 0 bins with
  | none => .error (.exception "halo mass not inside the minimum/maximum mass ranges")
  | some i => do
    let tc ← drawTimescale tcs sigmas i v.1
    if (s.obj h).mdef = "TNFW" ∨ (s.obj h).mdef = "NFW" then
      toSidm P { a with
        tc := some tc
        scaling := some ((10 : ℝ) ^ logScaling)
        cut := 0.15
        tOverTc := none } s h v.2
    else pure (s, h)

/-- `toSIDM_from_timescale`, `realization_extensions.py` 620-689. -/
noncomputable def fromTimescale (P : Phys) (a : SidmArgs) (bins : List (ℝ × ℝ)) (tcs : List ℝ)
    (sigmas : Option (List ℝ)) (logScaling : ℝ) (s : Store) (r : Realization) (vs : ℕ → ℝ × ℝ) :
    Except Err (Store × Realization) := do
  let p ← mapHalos (timescaleStep P a bins tcs sigmas logScaling) s
    (r.halos.zipIdx.map fun p => (p.1, vs p.2))
  pure (finish r p)

/-- One turn of the loop of `toSIDM_from_cross_section`, `realization_extensions.py` 725-752. -/
noncomputable def crossSectionStep (P : Phys) (a : SidmArgs) (bins : List (ℝ × ℝ)) (sigmas : List ℝ)
    (time : ℝ → ℝ → ℝ → ℝ) (logScaling : ℝ) (s : Store) (h : Oid) (u : ℝ) :
    Except Err (Store × Oid) :=
  match findBin (s.obj h).mass 0 bins with
  | none => .error (.exception "halo mass not inside the minimum/maximum mass ranges")
  | some i => do
    let sg ← idx sigmas i
    let (rhos, rs, _) ← P.nfw (s.obj h)
    let tc := time rhos rs ((10 : ℝ) ^ sg)
    if (s.obj h).mdef = "TNFW" ∨ (s.obj h).mdef = "NFW" then
      toSidm P { a with
        tc := some tc
        scaling := some ((10 : ℝ) ^ logScaling)
        cut := 0.15
        tOverTc := none } s h u
    else pure (s, h)

/-- `toSIDM_from_cross_section`, `realization_extensions.py` 691-760; `time` is
`sidm_timescale_function` or `LensCosmo.sidm_collapse_timescale`. -/
noncomputable def fromCrossSection (P : Phys) (a : SidmArgs) (bins : List (ℝ × ℝ)) (sigmas : List ℝ)
    (time : ℝ → ℝ → ℝ → ℝ) (logScaling : ℝ) (s : Store) (r : Realization) (vs : ℕ → ℝ) :
    Except Err (Store × Realization) := do
  let p ← mapHalos (crossSectionStep P a bins sigmas time logScaling) s
    (r.halos.zipIdx.map fun p => (p.1, vs p.2))
  pure (finish r p)

/-! ## Core collapse by mass -/

/-- The bin loop of `core_collapse_by_mass`, `realization_extensions.py` 795-804 and 806-815: whether
the index is appended. A bin probability is a number or a function of the halo. -/
noncomputable def binAccepts (o : Obj) (u : ℝ) : List (ℝ × ℝ) → List (Obj → ℝ) → Bool
  | (lo, hi) :: bs, p :: ps =>
    if o.mass ≥ (10 : ℝ) ^ lo ∧ o.mass < (10 : ℝ) ^ hi then decide (u ≤ p o)
    else binAccepts o u bs ps
  | _, _ => false

/-- The loop of `core_collapse_by_mass`, `realization_extensions.py` 787-816. -/
noncomputable def collapseLoop (s : Store) (sub field : List (ℝ × ℝ)) (pSub pField : List (Obj → ℝ)) :
    ℕ → List (Oid × ℝ) → List ℕ
  | _, [] => []
  | i, (h, u) :: rest =>
    let o := s.obj h
    let accept := if o.mdef ≠ "TNFW" then false
      else if o.isSubhalo then binAccepts o u sub pSub else binAccepts o u field pField
    if accept then i :: collapseLoop s sub field pSub pField (i + 1) rest
    else collapseLoop s sub field pSub pField (i + 1) rest

/-- `core_collapse_by_mass`, `realization_extensions.py` 762-817; one variate per halo. -/
noncomputable def coreCollapseByMass (s : Store) (r : Realization) (sub field : List (ℝ × ℝ))
    (pSub pField : List (Obj → ℝ)) (us : ℕ → ℝ) : Except Err (List ℕ) :=
  if sub.length ≠ pSub.length then .error .assertionError
  else if field.length ≠ pField.length then .error .assertionError
  else .ok (collapseLoop s sub field pSub pField 0
    (r.halos.zipIdx.map fun p => (p.1, us p.2)))

/-! ## Replacing halos by index -/

/-- `dict.update`, `halo_base.py` 56-62: existing keys are overwritten. -/
def kwUpdate (d new : Kw) : Kw := d.filter (fun p => !(new.map Prod.fst).contains p.1) ++ new

/-- The keyword arguments of the replacement profiles. `realization_extensions.py` 819-924. -/
def kwGet (d : Kw) (key : String) : Except Err ℝ :=
  match d.find? (fun p => p.1 == key) with
  | some p => .ok p.2
  | none => .error (.keyError key)

/-- One turn of the loop of `add_core_collapsed_halos`, `realization_extensions.py` 852-913, for a
halo whose index is in the list. -/
noncomputable def collapseHalo (P : Phys) (profile : String) (kw : Kw) (s : Store) (h : Oid) :
    Except Err (Store × Oid) :=
  if profile = "TNFWC" then do
    let x ← kwGet kw "x_core_halo"
    toSidm P { scaling := some 1, xCore := some x, profile := profile, evolving := false } s h 0
  else if profile = "CC_COMPOSITE" then do
    let g ← kwGet kw "gamma_inner"
    let m ← kwGet kw "scale_match_r"
    let l ← kwGet kw "log_slope_match"
    toSidm P {
      scaling := some 1
      profile := profile
      evolving := false
      gammaInner := g
      scaleMatch := m
      slopeMatch := l } s h 0
  else
    let o := s.obj h
    let s := { s with dict := Function.update s.dict o.args (kwUpdate (s.dict o.args) kw) }
    if !P.hasClasses o then .error (.attributeError "_truncation_class")
    else .ok (s.alloc (newObj P o (if profile = "GNFW" then .gnfw else .powerLaw) (s.dict o.args)))

/-- `add_core_collapsed_halos`, `realization_extensions.py` 819-924. -/
noncomputable def addCoreCollapsed (P : Phys) (indexes : List ℕ) (profile : String) (kw : Kw)
    (s : Store) (r : Realization) : Except Err (Store × Realization) :=
  if profile = "GNFW" ∨ profile = "SPL_CORE" ∨ profile = "TNFWC" ∨ profile = "CC_COMPOSITE" then do
    let p ← mapHalos (fun s h (i : ℕ) =>
      if i ∈ indexes then collapseHalo P profile kw s h else .ok (s, h)) s r.halos.zipIdx
    pure (finish r p)
  else .error (.exception
    "only halo profile models GNFW, SPL_CORE, TNFWC, and CC_COMPOSITE are supported")

/-- One turn of the loop of `add_cored_halos`, `realization_extensions.py` 275-297. The concentration
is read for every halo. -/
noncomputable def coredStep (P : Phys) (indexes : List ℕ) (beta : ℝ) (profile : String) (shared : ℕ)
    (s : Store) (h : Oid) (i : ℕ) : Except Err (Store × Oid) := do
  let o := s.obj h
  let _ ← P.conc o
  if profile = "CNFW" then
    if i ∈ indexes then
      let new := { newObj P o .coreNFW (s.dict shared) with r3d := none, args := shared }
      pure (s.alloc (if o.isSubhalo then
        { new with zInfall := some (P.zInfall o), boundMass := o.boundMass, hasBound := true }
        else new))
    else pure (s, h)
  else toSidm P { scaling := some 1, xCore := some beta, evolving := false } s h 0

/-- `add_cored_halos`, `realization_extensions.py` 262-306; all new halos share one dictionary. -/
noncomputable def addCored (P : Phys) (indexes : List ℕ) (beta : ℝ) (profile : String)
    (s : Store) (r : Realization) : Except Err (Store × Realization) := do
  let s : Store := { s with
    dict := Function.update s.dict s.nextDict [("beta", beta)], nextDict := s.nextDict + 1 }
  let p ← mapHalos (coredStep P indexes beta profile (s.nextDict - 1)) s r.halos.zipIdx
  pure (finish r p)

/-! ## Massive galaxies -/

/-- `SIS.__init__` and `MassiveGalaxy.__init__`, `sis.py` 13-33 and 68-91: everything is taken over,
including the fixed-position flag; `bound_mass` asks the old halo (47-52, 115-124). The SIS keeps the
dictionary of the halo; the entry `x_match = 'c'` of the other one is left out. -/
noncomputable def galaxy (P : Phys) (s : Store) (h : Oid) (cls : Cls) : Store × Oid :=
  let o := s.obj h
  if cls = .sis then
    s.alloc { newObj P o cls (s.dict o.args) with fixedPosition := o.fixedPosition, hasBound := o.isSubhalo && o.hasBound }
  else
    let d : Kw := [("gamma_inner", 2), ("gamma_outer", 5)]
    s.allocWith { newObj P o cls d with fixedPosition := o.fixedPosition, hasBound := o.isSubhalo && o.hasBound } d

/-- One turn of the loop of `SIS_injection`, `realization_extensions.py` 51-61. -/
noncomputable def sisStep (P : Phys) (threshold : ℝ) (model : String) (s : Store) (h : Oid)
    (_ : Unit) : Except Err (Store × Oid) :=
  if (s.obj h).mass ≥ threshold then
    if model = "GNFW" then .ok (galaxy P s h .massiveGalaxy)
    else if model = "SIS" then .ok (galaxy P s h .sis)
    else .error (.exception "Unknown galaxy model")
  else .ok (s, h)

/-- `SIS_injection`, `realization_extensions.py` 42-70: the shifted flag is not carried over. -/
noncomputable def sisInjection (P : Phys) (threshold : ℝ) (model : String) (s : Store)
    (r : Realization) : Except Err (Store × Realization) := do
  let p ← mapHalos (sisStep P threshold model) s (r.halos.map fun h => (h, ()))
  pure (p.1, Realization.rebuild p.1.heap r p.2)

/-! ## The density normalisation of generalised NFW halos -/

/-- `_density_norm`, `generalized_nfw.py` 94-126, at its first call (the result is kept). The transition
radius is taken from the dictionary, or written into it. `rhos` and `rs` are the NFW parameters of this
halo, `kpc` is `kpc_proper_per_asec`, `sigma` the critical density per square arcsecond, `m3d` is
lenstronomy's `mass_3d(R, Rs, rho0)` for the slopes of the profile. Numerical `x_match` only. -/
noncomputable def gnfwNorm (m3d : ℝ → ℝ → ℝ → ℝ) (kpc sigma rhos rs : ℝ) (s : Store) (h : Oid) :
    Except Err (Store × ℝ) := do
  let k := (s.obj h).args
  let s : Store := if (s.dict k).any (fun p => p.1 == "r_transition") then s
    else { s with dict := Function.update s.dict k (s.dict k ++ [("r_transition", rs)]) }
  let rt ← kwGet (s.dict k) "r_transition"
  let x := match kwGet (s.dict k) "x_match" with
    | .ok x => x
    | .error _ => 2.16
  let m := match kwGet (s.dict k) "mass_conservation" with
    | .ok m => m
    | .error _ => 4 * Real.pi * rt ^ 3 * rhos * (Real.log (1 + x) - x / (1 + x))
  pure (s, m / m3d (x * rt / kpc) (rt / kpc) sigma)

end Ext
end PyHalo
