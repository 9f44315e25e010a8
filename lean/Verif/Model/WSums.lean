import Verif.Model.GMix
import Verif.Model.MomResult

/-!
# Model of weighted moments and gaussian apertures

`/repo/ngmix/gmix/gmix_nb.py` (`get_weighted_sums`, `get_higher_order_weighted_sums`), `/repo/ngmix/gmix/gmix.py`
(`get_gaussap_flux`, `get_weighted_sums`, `get_weighted_moments`), `/repo/ngmix/gaussmom.py`, `/repo/ngmix/gaussap.py`.
-/

namespace Ngmix

noncomputable section

/-! ### Weighted sums -/

/-- The accumulated numbers of the result record, `gmix.py:1287-1297`. -/
structure WAcc where
  wsum : ℝ
  sums : ℕ → ℝ
  cov : ℕ → ℕ → ℝ

/-- The result record: `acc = none` when all accumulated numbers are NaN.  `gmix.py:1281-1297`. -/
structure WRes where
  npix : ℕ
  acc : Option WAcc

/-- `np.zeros(1, dtype=dt)[0]`, `gmix.py:707-711`. -/
def WRes.zero : WRes := ⟨0, some ⟨0, fun _ => 0, fun _ _ => 0⟩⟩

/-- The vector `F` of `gmix_nb.py:712-717`; `vcen`, `ucen` are the centre of the first gaussian of the weight. -/
def wsF6 (vcen ucen : ℝ) (px : Pixel) : List ℝ :=
  let vmod := px.v - vcen
  let umod := px.u - ucen
  let rad2 := umod * umod + vmod * vmod
  [px.v, px.u, umod * umod - vmod * vmod, 2 * vmod * umod, rad2, 1.0]

/-- The vector `F` of `gmix_nb.py:771-804`. -/
def wsF17 (vcen ucen : ℝ) (px : Pixel) : List ℝ :=
  let v := px.v - vcen
  let u := px.u - ucen
  let r2 := u * u + v * v
  let u2 := u ^ 2
  let v2 := v ^ 2
  let vu := v * u
  let u4 := u2 ^ 2
  let v4 := v2 ^ 2
  let r4 := r2 * r2
  let r6 := r4 * r2
  let r8 := r6 * r2
  [px.v, px.u, u2 - v2, 2 * vu, r2, 1.0,
   u * r2, v * r2, u * (u2 - 3 * v2), v * (3 * u2 - v2),
   r4, r2 * (u2 - v2), r2 * 2 * u * v, u4 - 6 * u2 * v2 + v4, (u2 - v2) * 4 * u * v,
   r6, r8]

/-- The moments of one pixel, 17 of them with higher orders, 6 without.  `gmix_nb.py:672-812`. -/
def wsF (higher : Bool) (vcen ucen : ℝ) (px : Pixel) : List ℝ :=
  if higher then wsF17 vcen ucen px else wsF6 vcen ucen px

/-- Accumulation of one pixel inside the radius, `gmix_nb.py:706-725`, `:765-812`. -/
def wsStep (F : List ℝ) (px : Pixel) (weight : ℝ) (a : WAcc) : WAcc :=
  let var := 1.0 / (px.ierr * px.ierr)
  let wdata := weight * px.val
  let w2 := weight * weight
  { wsum := a.wsum + weight
    sums := fun i => a.sums i + wdata * F.getD i 0
    cov := fun i j => a.cov i j + w2 * var * F.getD i 0 * F.getD j 0 }

/-- `gmix_nb.py:673-725` `get_weighted_sums` and `:729-812` `get_higher_order_weighted_sums`.  `wt` is the whole
weight, `g` its first gaussian; `maxrad2 = none` is NaN: no pixel passes the comparison.  Division by zero raises. -/
def wsLoop (higher : Bool) (g : Gauss) (wt : List Gauss) (maxrad2 : Option ℝ) : List Pixel → WRes → Except PyErr WRes
  | [], res => .ok res
  | px :: pxs, res =>
      let vmod := px.v - g.row
      let umod := px.u - g.col
      let rad2 := umod * umod + vmod * vmod
      open Classical in
      if ∃ m ∈ maxrad2, rad2 < m then
        if px.ierr * px.ierr = 0 then .error .zeroDiv
        else
          wsLoop higher g wt maxrad2 pxs
            ⟨res.npix + 1, (gmixEval wt px.v px.u px.area).bind fun w =>
              res.acc.map (wsStep (wsF higher g.row g.col px) px w)⟩
      else wsLoop higher g wt maxrad2 pxs res

/-- `maxrad ** 2` with the default of `gmix.py:702-705`, `none` when it is NaN. -/
def wsMaxrad2 (data : List Gauss) : Option ℝ → Option ℝ
  | some maxrad => some (maxrad ^ 2)
  | none => (gmGetT data).bind fun T => if T / 2 < 0 then none else some ((100 * Real.sqrt (T / 2)) ^ 2)

/-- `gmix.py:673-721` `get_weighted_sums`: the mixture data left behind and the outcome.  `res` is the record that is
added to.  A mixture without gaussians does not exist. -/
def getWeightedSums (data : List Gauss) (pixels : List Pixel) (maxrad : Option ℝ) (higher : Bool) (res : WRes) :
    List Gauss × Except PyErr WRes :=
  match setNormsIfNeeded data with
  | (data', .error e) => (data', .error e)
  | (data', .ok _) =>
      match data' with
      | [] => (data', .error .index)
      | g :: gs => (data', wsLoop higher g (g :: gs) (wsMaxrad2 (g :: gs) maxrad) pixels res)

/-- number of moments.  `gmix.py:1281-1297`. -/
def nMom (higher : Bool) : ℕ := if higher then 17 else 6

/-- The sums as an array of floats.  `gmix.py:1262-1279`. -/
def wsSums (higher : Bool) : Option WAcc → List Fl
  | none => List.replicate (nMom higher) .nan
  | some a => (List.range (nMom higher)).map fun i => .fin (a.sums i)

/-- The covariance sums.  `gmix.py:1262-1279`. -/
def wsCov (higher : Bool) : Option WAcc → CovMat
  | none => ⟨nMom higher, nMom higher, fun _ _ => .nan⟩
  | some a => ⟨nMom higher, nMom higher, fun i j => .fin (a.cov i j)⟩

/-- The sum of the weights.  `gmix.py:1262-1279`. -/
def wsWsum : Option WAcc → Fl
  | none => .nan
  | some a => .fin a.wsum

/-- Result dictionary: that of `make_mom_result` and the keys of the record that it does not overwrite.  (`F` is
scratch; `pars` of the record is zero and stays when `make_mom_result` does not set it.).  `gmix.py:1252-1279`. -/
structure WMom where
  res : MomRes
  wsum : Fl
  npix : ℕ

/-- `gmix.py:1262-1278` `get_weighted_moments_stats`. -/
def weightedStats (higher : Bool) (r : WRes) : Except PyErr WMom :=
  (makeMomResult (wsSums higher r.acc) (wsCov higher r.acc) (some (wsWsum r.acc))).map fun m =>
    ⟨m, wsWsum r.acc, r.npix⟩

/-- `gmix.py:641-671` `get_weighted_moments`. -/
def getWeightedMoments (data : List Gauss) (pixels : List Pixel) (maxrad : Option ℝ) (higher : Bool) :
    List Gauss × Except PyErr WMom :=
  match getWeightedSums data pixels maxrad higher WRes.zero with
  | (data', .error e) => (data', .error e)
  | (data', .ok r) => (data', weightedStats higher r)

/-! ### `GaussMom` -/

/-- `gaussmom.py:75-94` `_set_mompars`, called by `__init__`, `:23-26`: the weight.  (`norm` cannot be zero, the model says `zeroDiv` then.) -/
def gaussMomWeight (fwhm : ℝ) : Except PyErr (List Gauss) :=
  (newGMixModel [0.0, 0.0, 0.0, 0.0, fwhmToT fwhm, 1.0] (.str "gauss")).bind fun o =>
    match gmixSetNorms o.data with
    | (_, .error e) => .error e
    | (data, .ok _) =>
        match data.head?.bind Gauss.d with
        | none => .error .index
        | some d =>
            match setFlux data (1.0 / d.norm) with
            | none => .error .zeroDiv
            | some w => .ok w

/-- The argument of `GaussMom.go`: an observation (its pixels and the area of its jacobian) or a list.  `gaussmom.py:28-47`. -/
inductive GMomArg
  | obs (pixels : List Pixel) (area : ℝ)
  | list

/-- `gaussmom.py:61-72`: the factor taken out of a successful result. -/
def gaussMomScale (area : ℝ) (w : WMom) : WMom :=
  let fac : Fl := .fin 1 / .fin area
  { w with
    wsum := w.wsum * fac
    res := { w.res with
      flux := w.res.flux * fac
      fluxErr := w.res.fluxErr * fac
      pars := w.res.pars.map fun p => p.modify 5 (fun x => x * fac)
      sums := w.res.sums.map fun x => x * fac
      sumsCov := ⟨w.res.sumsCov.n, w.res.sumsCov.m, fun i j => w.res.sumsCov.get i j * fac.sq⟩
      sumsNorm := w.res.sumsNorm * fac
      sumsErr := w.res.sumsErr.map fun x => x * fac } }

/-- `gaussmom.py:28-47` `go` and `:49-73`: the weight left behind and the outcome.  Observation lists have no `pixels`. -/
def gaussMomGo (weight : List Gauss) (higher : Bool) : GMomArg → List Gauss × Except PyErr WMom
  | .list => ((setNormsIfNeeded weight).1, (setNormsIfNeeded weight).2.bind fun _ => .error .attribute)
  | .obs pixels area =>
      match getWeightedMoments weight pixels none higher with
      | (weight', .error e) => (weight', .error e)
      | (weight', .ok w) =>
          (weight', .ok (if w.res.flags ≠ 0 then w else gaussMomScale area w))

/-! ### Gaussian apertures -/

/-- The weight function's argument, `gmix.py:307-314`. -/
inductive ApWidth
  | fwhm (x : ℝ)
  | T (x : ℝ)
  | sigma (x : ℝ)
  | missing

/-- `sigma ** 2` of `gmix.py:307-316`; `none` is NaN. -/
def ApWidth.sigma2 : ApWidth → Except PyErr (Option ℝ)
  | .fwhm x => .ok (some (fwhmToSigma x ^ 2))
  | .T x => .ok (if x / 2.0 < 0 then none else some (Real.sqrt (x / 2.0) ^ 2))
  | .sigma x => .ok (some (x ^ 2))
  | .missing => .error .value

/-- `np.linalg.inv` of a 2x2 matrix.  `gmix.py:292-359`. -/
def inv2 (a b c d : ℝ) : Except PyErr (ℝ × ℝ × ℝ × ℝ) :=
  open Classical in
  if a * d - b * c = 0 then .error .linAlg
  else .ok (d / (a * d - b * c), -b / (a * d - b * c), -c / (a * d - b * c), a / (a * d - b * c))

/-- The matrix computations of `gmix.py:342-347`: `newdet`. -/
def apNewdet (g : Gauss) (wi : ℝ × ℝ × ℝ × ℝ) : Except PyErr ℝ :=
  (inv2 g.irr g.irc g.irc g.icc).bind fun m =>
    (inv2 (m.1 + wi.1) (m.2.1 + wi.2.1) (m.2.2.1 + wi.2.2.1) (m.2.2.2 + wi.2.2.2)).map fun n =>
      n.1 * n.2.2.2 - n.2.1 * n.2.2.1

/-- `fac` of one gaussian, `gmix.py:330-355`; `none` is NaN. -/
def apFactor (g : Gauss) (wi : ℝ × ℝ × ℝ × ℝ) : Option ℝ :=
  if g.det > gmixLowDetval then
    match apNewdet g wi with
    | .error _ => some 1
    | .ok newdet =>
        if newdet / g.det < 0 then none
        else if Real.sqrt (newdet / g.det) > 1 then some 1 else some (Real.sqrt (newdet / g.det))
  else some 1

/-- The loop of `gmix.py:323-357`. -/
def apLoop (wi : ℝ × ℝ × ℝ × ℝ) : List Gauss → Option ℝ → Option ℝ
  | [], acc => acc
  | g :: gs, acc => apLoop wi gs (acc.bind fun a => (apFactor g wi).map fun f => a + g.p * f)

/-- `gmix.py:292-359` `get_gaussap_flux`; `none` is NaN.  A NaN width makes every entry of the inverse NaN: then a
gaussian above the determinant threshold contributes NaN. -/
def gaussapFlux (gm : List Gauss) (w : ApWidth) : Except PyErr (Option ℝ) :=
  w.sigma2.bind fun s =>
    match s with
    | none => .ok (if ∃ g ∈ gm, g.det > gmixLowDetval then none else some (psum gm))
    | some sigma2 => (inv2 sigma2 0.0 0.0 sigma2).map fun wi => apLoop wi gm (some 0.0)

/-! ### Catalogs -/

/-- The input of `get_gaussap_flux`, `gaussap.py:16-22`: `pars` is a 2-d array, `width` its second dimension. -/
structure ApTable where
  rows : List (List ℝ)
  width : ℕ
  fracdev : List ℝ
  TdByTe : List ℝ
  mask : Option (List Bool)

/-- `gaussap.py:164-170` `_get_band_npars`. -/
def apNpars (model : String) : ℕ := if model = "bdf" then 7 else 6

/-- `gaussap.py:140-152` `_get_band_pars`. -/
def apBandPars (model : String) (row : List ℝ) (band : ℕ) : Except PyErr (List ℝ) :=
  let n := apNpars model
  match row[n - 1 + band]? with
  | none => .error .index
  | some f => .ok (((row.take (n - 1)) ++ [f]).modify 4 fun T => max T 0.0001)

/-- The mixture of `gaussap.py:96-103`. -/
def apMixture (model : String) (fd td : ℝ) (pars : List ℝ) : Except PyErr GMixObj :=
  if model = "cm" then newGMixCM fd td pars else newGMixModel pars (.str model)

/-- One entry: the flux (`none` is NaN) and the flags.  `gaussap.py:87-111`. -/
abbrev ApEntry := Option ℝ × ℕ

/-- `gaussap.py:87-111` `_do_gap`. -/
def apDo (model : String) (weightFwhm fd td : ℝ) (row : List ℝ) (band : ℕ) : Except PyErr ApEntry :=
  match (apBandPars model row band).bind fun pars => (apMixture model fd td pars).bind fun o =>
      gaussapFlux o.data (.fwhm weightFwhm) with
  | .ok f => .ok (f, 0)
  | .error .gmixRange => .ok (none, Flags.GMIX_RANGE_ERROR)
  | .error e => .error e

/-- The bands of one object.  `gaussap.py:16-84`. -/
def apBands (model : String) (weightFwhm fd td : ℝ) (row : List ℝ) : List ℕ → Except PyErr (List ApEntry)
  | [] => .ok []
  | b :: bs => (apDo model weightFwhm fd td row b).bind fun e =>
      (apBands model weightFwhm fd td row bs).map fun es => e :: es

/-- The loop over objects, `gaussap.py:59-82`; each object comes with its `fracdev`, `TdByTe` and mask. -/
def apRows (model : String) (weightFwhm : ℝ) (nband : ℕ) :
    List (List ℝ × ℝ × ℝ × Bool) → Except PyErr (List (List ApEntry))
  | [] => .ok []
  | (row, fd, td, m) :: rest =>
      (if m then apBands model weightFwhm fd td row (List.range nband)
        else .ok (List.replicate nband (none, Flags.NO_ATTEMPT))).bind fun r =>
        (apRows model weightFwhm nband rest).map fun rs => r :: rs

/-- `gaussap.py:16-84` `get_gaussap_flux` with `_prepare` `:114-137` and `_get_nband` `:155-161`.  For models other than
`cm` the lists `fracdev`, `TdByTe` are not looked at.  (`cm` without them is not modelled.) -/
def gaussapTable (t : ApTable) (model : String) (weightFwhm : ℝ) : Except PyErr (List (List ApEntry)) :=
  let n := t.rows.length
  let mask := t.mask.getD (List.replicate n true)
  if mask.length ≠ n then .error .assertion
  else if model = "cm" ∧ (t.fracdev.length ≠ n ∨ t.TdByTe.length ≠ n) then .error .assertion
  else if n = 0 then .error .index
  else if t.width + 1 < apNpars model then .error .value
  else
    let fd := if model = "cm" then t.fracdev else List.replicate n 0
    let td := if model = "cm" then t.TdByTe else List.replicate n 0
    apRows model weightFwhm (t.width + 1 - apNpars model) (t.rows.zip (fd.zip (td.zip mask)))

end

end Ngmix
