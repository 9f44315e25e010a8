import Verif.Model.Basic
import Verif.Model.Fl
import Verif.Model.Flags
import Verif.Model.Moments

/-!
# Model of `util.py:57-80` and `moments.py:398-641` (moment results)
-/

namespace Ngmix

noncomputable section

open Classical

/-- `util.py:57-68` `get_ratio_var` on numpy scalars. -/
def getRatioVar (a b varA varB covAB : Fl) : Except PyErr Fl :=
  if b.isZero then .error .value
  else
    let rsq := (a / b).sq
    .ok (rsq * (varA / a.sq + varB / b.sq - Fl.fin 2 * covAB / (a * b)))

/-- `util.py:71-80` `get_ratio_error`. -/
def getRatioError (a b varA varB covAB : Fl) : Except PyErr Fl :=
  (getRatioVar a b varA varB covAB).bind fun v => .ok (v.clip0).sqrt

/-- A 2-d covariance array.  `moments.py:398-425`: the argument `sums_cov`. -/
structure CovMat where
  n : ℕ
  m : ℕ
  get : ℕ → ℕ → Fl

/-- `moments.py:8-61` `MOMENTS_NAME_MAP` in dictionary order. -/
def momentsNameMap : List (String × ℕ) :=
  [("Mv", 0), ("Mu", 1), ("M1", 2), ("M2", 3), ("MT", 4), ("MF", 5),
   ("M00", 5), ("M10", 1), ("M01", 0), ("M11", 4), ("M20", 2), ("M02", 3),
   ("M21", 6), ("M12", 7), ("M30", 8), ("M03", 9), ("M22", 10), ("M31", 11), ("M13", 12),
   ("M40", 13), ("M14", 14), ("M33", 15), ("M44", 16)]

/-- The result dictionary of `make_mom_result`.  The `*flagstr` keys (functions of the flags) are
not stored, `e_cov` is represented by its diagonal.  `moments.py:434-457`. -/
structure MomRes where
  flags : ℕ
  fluxFlags : ℕ
  TFlags : ℕ
  flux : Fl
  fluxErr : Fl
  s2n : Fl
  T : Fl
  Terr : Fl
  e1 : Fl
  e2 : Fl
  eErr : Fl × Fl
  eCovDiag : Fl × Fl
  sumsErr : List Fl
  pars : Option (List Fl)
  sums : List Fl
  sumsCov : CovMat
  sumsNorm : Fl
  /-- entries `res[name], res[name_err]` in the order they are added -/
  named : List (String × Fl × Fl)

/-- One entry of the loop of `moments.py:555-575`. -/
def namedEntry (sums : List Fl) (cov : CovMat) (name : String) (ind : ℕ) :
    Except PyErr (String × Fl × Fl) :=
  let s := fun i => sums.getD i Fl.nan
  let fsum := s 5
  let fsumErr := (cov.get 5 5).sqrt
  if name = "MF" ∨ name = "M00" then .ok (name, fsum, fsumErr)
  else if fsum.pos then
    -- sums_cov[ind, ind] is an IndexError when the matrix is too small
    if ind ≥ cov.n then .error .index
    else (getRatioError (s ind) (s 5) (cov.get ind ind) (cov.get 5 5) (cov.get ind 5)).bind
      fun err => .ok (name, s ind / fsum, err)
  else .ok (name, Fl.nan, Fl.nan)

/-- `moments.py:542-575` `_add_moments_by_name`. -/
def addMomentsByName (sums : List Fl) (cov : CovMat) :
    List (String × ℕ) → Except PyErr (List (String × Fl × Fl))
  | [] => .ok []
  | (name, ind) :: rest =>
      -- `if ind > sums.size-1: continue`
      if ind ≥ sums.length then addMomentsByName sums cov rest
      else (namedEntry sums cov name ind).bind fun e =>
        (addMomentsByName sums cov rest).bind fun es => .ok (e :: es)

/-- Flux entries `(flux_err, s2n, flux_flags)`, `moments.py:459-464`. -/
def momFlux (sums : List Fl) (cov : CovMat) : Fl × Fl × ℕ :=
  if (cov.get 5 5).pos then
    let err := (cov.get 5 5).sqrt
    (err, sums.getD 5 Fl.nan / err, 0)
  else (Fl.nan, Fl.nan, Flags.NONPOS_VAR)

/-- Size entries `(T, T_err, T_flags)`, `moments.py:466-481`. -/
def momSize (sums : List Fl) (cov : CovMat) : Except PyErr (Fl × Fl × ℕ) :=
  let s := fun i => sums.getD i Fl.nan
  if (cov.get 5 5).pos ∧ (cov.get 4 4).pos then
    if (s 5).pos then
      (getRatioError (s 4) (s 5) (cov.get 4 4) (cov.get 5 5) (cov.get 4 5)).bind
        fun err => .ok (s 4 / s 5, err, 0)
    else .ok (Fl.nan, Fl.nan, Flags.NONPOS_FLUX)
  else .ok (Fl.nan, Fl.nan, Flags.NONPOS_VAR)

/-- Initialisation and the test of all variances, `moments.py:434-457` and `:483-487`. -/
def momBase (sums : List Fl) (cov : CovMat) (sumsNorm : Option Fl) (fl tp : Fl × Fl × ℕ) : MomRes :=
  let base : MomRes :=
    { flags := 0, fluxFlags := fl.2.2, TFlags := tp.2.2, flux := sums.getD 5 Fl.nan,
      fluxErr := fl.1, s2n := fl.2.1, T := tp.1, Terr := tp.2.1, e1 := Fl.nan, e2 := Fl.nan,
      eErr := (Fl.nan, Fl.nan), eCovDiag := (Fl.nan, Fl.nan),
      sumsErr := List.replicate 6 Fl.nan, pars := none,
      sums := sums, sumsCov := cov, sumsNorm := sumsNorm.getD Fl.nan, named := [] }
  if ∀ i < cov.n, (cov.get i i).pos then
    { base with sumsErr := (List.range cov.n).map fun i => (cov.get i i).sqrt }
  else { base with flags := base.flags ||| Flags.NONPOS_VAR }

/-- Shape entries, `moments.py:489-531`. -/
def momShape (sums : List Fl) (cov : CovMat) (base : MomRes) : Except PyErr MomRes :=
  let s := fun i => sums.getD i Fl.nan
  if base.flags = 0 then
    if base.flux.pos then
      if base.T.pos then
        let e1 := s 2 / s 4
        let e2 := s 3 / s 4
        let base : MomRes := { base with e1 := e1, e2 := e2,
                                         pars := some [s 0, s 1, e1, e2, base.T, base.flux] }
        (getRatioError (s 2) (s 4) (cov.get 2 2) (cov.get 4 4) (cov.get 2 4)).bind fun err1 =>
        (getRatioError (s 3) (s 4) (cov.get 3 3) (cov.get 4 4) (cov.get 3 4)).bind fun err2 =>
        if err1.isFinite ∧ err2.isFinite then
          .ok { base with eErr := (err1, err2), eCovDiag := (err1.sq, err2.sq) }
        else .ok { base with flags := base.flags ||| Flags.NONPOS_SHAPE_VAR }
      else .ok { base with flags := base.flags ||| Flags.NONPOS_SIZE }
    else .ok { base with flags := base.flags ||| Flags.NONPOS_FLUX }
  else .ok base

/-- `moments.py:398-539` `make_mom_result`. -/
def makeMomResult (sums : List Fl) (cov : CovMat) (sumsNorm : Option Fl := none) :
    Except PyErr MomRes :=
  if sums.length ≠ 6 ∧ sums.length ≠ 17 then .error .value
  else if (cov.n, cov.m) ≠ (6, 6) ∧ (cov.n, cov.m) ≠ (17, 17) then .error .value
  else
    (momSize sums cov).bind fun tp =>
    (momShape sums cov (momBase sums cov sumsNorm (momFlux sums cov) tp)).bind fun res =>
    (addMomentsByName sums cov momentsNameMap).bind fun named =>
    .ok { res with named := named }

/-- One entry of `np.dot(amat, v)` for the 6x6 matrix `amat` of `moments.py:612-613` (identity plus
`T_reg` at [4,5]). -/
def amat (Treg : ℝ) (i k : ℕ) : Fl :=
  if i = k then Fl.fin 1 else if i = 4 ∧ k = 5 then Fl.fin Treg else Fl.fin 0

/-- Sum over six products in index order.  `moments.py:621, 629`. -/
def dot6 (f g : ℕ → Fl) : Fl :=
  f 0 * g 0 + f 1 * g 1 + f 2 * g 2 + f 3 * g 3 + f 4 * g 4 + f 5 * g 5

/-- NaN replaced by zero, `moments.py:616-627`. -/
def nanToZero (x : Fl) : Fl := if x.isNan then Fl.fin 0 else x

/-- `moments.py:615-627`: the `sums` array of the argument after the call.  The NaN centroid sums are set to zero in place
and set back after `np.dot`, which raises when there are not six. -/
def regSumsLeft (res : MomRes) (fwhmReg : ℝ) : List Fl :=
  if fwhmReg > 0 ∧ res.sums.length ≠ 6 then
    (List.range res.sums.length).map fun i =>
      let x := res.sums.getD i Fl.nan
      if i < 2 then nanToZero x else x
  else res.sums

/-- `moments.py:578-641` `regularize_mom_shapes`.  A result with 17 moments makes `np.dot` raise
`ValueError` (shapes not aligned). -/
def regularizeMomShapes (res : MomRes) (fwhmReg : ℝ) : Except PyErr MomRes :=
  if fwhmReg > 0 then
    if res.sums.length ≠ 6 ∨ (res.sumsCov.n, res.sumsCov.m) ≠ (6, 6) then .error .value
    else
      let Treg := fwhmToT fwhmReg
      let raw := fun i =>
        let x := res.sums.getD i Fl.nan
        if i < 2 then nanToZero x else x
      let reg := (List.range 6).map fun i =>
        let d := dot6 (amat Treg i) raw
        if i < 2 ∧ (res.sums.getD i Fl.nan).isNan then Fl.nan else d
      let cat := fun i j => dot6 (fun k => res.sumsCov.get i k) (fun k => amat Treg j k)
      let regCov : CovMat := ⟨6, 6, fun i j => dot6 (fun k => amat Treg i k) (fun k => cat k j)⟩
      (makeMomResult reg regCov).bind fun momres =>
      .ok { momres with T := res.T, Terr := res.Terr, TFlags := res.TFlags,
                        flags := momres.flags ||| res.flags }
  else .ok res

end

end Ngmix
