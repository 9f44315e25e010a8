import Verif.Model.GMix
import Verif.Model.MomResult

/-!
# Model of `/repo/ngmix/admom/admom.py` and `admom_nb.py`

The weight array that the loop updates is the data array of the guess mixture itself (`admom.py:347-354`,
`:363-364`), so every operation returns the weight it leaves behind.  The result record starts as zeros
(`admom.py:382-384`).  numba raises `ZeroDivisionError` on a division by zero.
-/

namespace Ngmix

noncomputable section

/-- `admom.py:585-591` `_admom_conf_dtype`, filled by `AdmomFitter.__init__` and `_set_conf`, `:307-323, 370-380`, with the
arguments as they are (`run_admom`, `:20-71`, passes its own on). -/
structure AMConf where
  maxiter : ℤ
  shiftmax : ℝ
  etol : ℝ
  Ttol : ℝ
  cenonly : Bool

/-- `admom.py:571-583` `_admom_result_dtype`, without the scratch array `F`. -/
structure AMRes where
  flags : ℕ
  numiter : ℕ
  npix : ℕ
  wsum : ℝ
  sums : Fin 7 → ℝ
  sumsCov : Fin 7 → Fin 7 → ℝ
  pars : List Fl
  rho4 : Fl

/-- `np.zeros(1, dtype=dt)`, `admom.py:382-384`; the result keeps what is computed, `admom.py:232-234`. -/
def AMRes.zero : AMRes :=
  ⟨0, 0, 0, 0, fun _ => 0, fun _ _ => 0, List.replicate 6 (.fin 0), .fin 0⟩

/-- The weight mixture.  The loop reads and updates its first gaussian, `g`; further gaussians, if any, only
take part in the evaluation.  `admom_nb.py:14-29`: the argument `wt`. -/
structure AMWt where
  g : Gauss
  rest : List Gauss

/-- All gaussians of the weight.  `admom_nb.py:38`. -/
def AMWt.list (w : AMWt) : List Gauss := w.g :: w.rest

/-- `gmix_set_norms(wt)`, `admom_nb.py:38`. -/
def amSetNorms (w : AMWt) : AMWt × Except PyErr Unit :=
  match gmixSetNorms w.list with
  | ([], r) => (w, r)
  | (g :: gs, r) => (⟨g, gs⟩, r)

/-- `admom_nb.py:230-240` `clear_result`. -/
def amClear (res : AMRes) : AMRes :=
  { res with npix := 0, wsum := 0, sums := fun _ => 0, sumsCov := fun _ _ => 0,
             pars := List.replicate 6 .nan, rho4 := .nan }

/-- Body of the loop of `admom_censums`, `admom_nb.py:120-128`. -/
def cenStep (w : AMWt) (res : AMRes) (px : Pixel) : AMRes :=
  let weight := gmixEvalFast w.list px.v px.u px.area
  let wdata := weight * px.val
  { res with npix := res.npix + 1,
             sums := fun i =>
               if i = 0 then res.sums i + wdata * px.v
               else if i = 1 then res.sums i + wdata * px.u
               else if i = 5 then res.sums i + wdata
               else res.sums i }

/-- `admom_nb.py:112-128` `admom_censums`. -/
def amCensums (w : AMWt) (pixels : List Pixel) (res : AMRes) : AMRes :=
  pixels.foldl (cenStep w) res

/-- `chi2` of `admom_nb.py:155-159`.  (The norms were set before; with NaN norms it would be NaN, the model
says 0, which no run reaches.) -/
def amChi2 (g : Gauss) (vmod umod : ℝ) : ℝ :=
  match g.d with
  | none => 0
  | some d => d.dcc * vmod * vmod + d.drr * umod * umod - 2.0 * d.drc * vmod * umod

/-- The vector `F` of `admom_nb.py:161-167`. -/
def amF (g : Gauss) (px : Pixel) : Fin 7 → ℝ :=
  let vmod := px.v - g.row
  let umod := px.u - g.col
  let chi2 := amChi2 g vmod umod
  ![px.v, px.u, umod * umod - vmod * vmod, 2 * vmod * umod, umod * umod + vmod * vmod, 1.0, chi2 * chi2]

/-- Body of the loop of `admom_momsums`, `admom_nb.py:144-175`. -/
def momStep (w : AMWt) (res : AMRes) (px : Pixel) : AMRes :=
  let weight := gmixEvalFast w.list px.v px.u px.area
  let var := 1.0 / (px.ierr * px.ierr)
  let wdata := weight * px.val
  let w2 := weight * weight
  { res with wsum := res.wsum + weight, npix := res.npix + 1,
             sums := fun i => res.sums i + wdata * amF w.g px i,
             sumsCov := fun i j => res.sumsCov i j + w2 * var * amF w.g px i * amF w.g px j }

/-- `admom_nb.py:132-175` `admom_momsums`; line 147 raises for a pixel with `ierr = 0`. -/
def amMomsums (w : AMWt) : List Pixel → AMRes → Except PyErr AMRes
  | [], res => .ok res
  | px :: pxs, res =>
      open Classical in
      if px.ierr * px.ierr = 0 then .error .zeroDiv else amMomsums w pxs (momStep w res px)

/-- `admom_nb.py:179-226` `deweight_moments`: the new gaussian and the flag that is set (0: none). -/
def deweightMoments (g : Gauss) (Irr Irc Icc : ℝ) : Gauss × ℕ :=
  let detm := Irr * Icc - Irc * Irc
  if detm ≤ gmixLowDetval then (g, Flags.LOW_DET)
  else
    let Wrr := g.irr
    let Wrc := g.irc
    let Wcc := g.icc
    let detw := Wrr * Wcc - Wrc * Wrc
    if detw ≤ gmixLowDetval then (g, Flags.LOW_DET)
    else
      let idetw := 1.0 / detw
      let idetm := 1.0 / detm
      let Nrr := Icc * idetm - Wcc * idetw
      let Ncc := Irr * idetm - Wrr * idetw
      let Nrc := -Irc * idetm + Wrc * idetw
      let detn := Nrr * Ncc - Nrc * Nrc
      if detn ≤ gmixLowDetval then (g, Flags.LOW_DET)
      else
        let idetn := 1 / detn
        let irr := Ncc * idetn
        let icc := Nrr * idetn
        let irc := -Nrc * idetn
        ({ g with irr := irr, icc := icc, irc := irc, det := irr * icc - irc * irc }, 0)

/-- The test of `admom_nb.py:79-81`; with the initial NaNs it is false. -/
def amClose (conf : AMConf) (old : Option (ℝ × ℝ × ℝ)) (e1 e2 T : ℝ) : Prop :=
  match old with
  | none => False
  | some (e1old, e2old, Told) =>
      |e1 - e1old| < conf.etol ∧ |e2 - e2old| < conf.etol ∧ |T / Told - 1| < conf.Ttol

/-- How a pass of the loop ends.  `admom_nb.py:31-103`. -/
inductive AMNext
  | brk
  | next (e1 e2 T : ℝ)

/-- `admom_nb.py:58-103`: the part of a pass after the sums.  `Told` is never zero (it passed the test of
line 72), so line 81 does not divide by zero. -/
def amDecide (conf : AMConf) (w : AMWt) (res : AMRes) (old : Option (ℝ × ℝ × ℝ)) : AMWt × AMRes × AMNext :=
  if res.sums 5 ≤ 0 then (w, { res with flags := Flags.NONPOS_FLUX }, .brk)
  else
    let finv := 1.0 / res.sums 5
    let M1 := res.sums 2 * finv
    let M2 := res.sums 3 * finv
    let T := res.sums 4 * finv
    let Irr := 0.5 * (T - M1)
    let Icc := 0.5 * (T + M1)
    let Irc := 0.5 * M2
    if T ≤ 0 then (w, { res with flags := Flags.NONPOS_SIZE }, .brk)
    else
      let e1 := (Icc - Irr) / T
      let e2 := 2 * Irc / T
      open Classical in
      if amClose conf old e1 e2 T then
        (w, { res with pars := [.fin w.g.row, .fin w.g.col, .fin (w.g.icc - w.g.irr), .fin (2.0 * w.g.irc),
                                .fin (w.g.icc + w.g.irr), .fin 1.0],
                       rho4 := .fin (res.sums 6 / res.sums 5) }, .brk)
      else if conf.cenonly then (w, res, .next e1 e2 T)
      else
        match deweightMoments w.g Irr Irc Icc with
        | (g', 0) => ({ w with g := g' }, res, .next e1 e2 T)
        | (g', fl) => ({ w with g := g' }, { res with flags := fl }, .brk)

/-- `admom_nb.py:40-103`: a pass after the norms have been set.  When it raises, the result record is not
returned to anyone. -/
def amPass (conf : AMConf) (orig : ℝ × ℝ) (pixels : List Pixel) (w : AMWt) (res : AMRes)
    (old : Option (ℝ × ℝ × ℝ)) : AMWt × AMRes × Except PyErr AMNext :=
  let res := amCensums w pixels (amClear res)
  if res.sums 5 ≤ 0 then (w, { res with flags := Flags.NONPOS_FLUX }, .ok .brk)
  else
    let w : AMWt := { w with g := { w.g with row := res.sums 0 / res.sums 5, col := res.sums 1 / res.sums 5 } }
    if |w.g.row - orig.1| > conf.shiftmax ∨ |w.g.col - orig.2| > conf.shiftmax then
      (w, { res with flags := Flags.CEN_SHIFT }, .ok .brk)
    else
      match amMomsums w pixels (amClear res) with
      | .error e => (w, res, .error e)
      | .ok res' => match amDecide conf w res' old with
        | (w', r', n) => (w', r', .ok n)

/-- `admom_nb.py:33-103`: one pass of the loop. -/
def amIter (conf : AMConf) (orig : ℝ × ℝ) (pixels : List Pixel) (w : AMWt) (res : AMRes)
    (old : Option (ℝ × ℝ × ℝ)) : AMWt × AMRes × Except PyErr AMNext :=
  if w.g.det < gmixLowDetval then (w, { res with flags := Flags.LOW_DET }, .ok .brk)
  else match amSetNorms w with
    | (w', .error e) => (w', res, .error e)
    | (w', .ok _) => amPass conf orig pixels w' res old

/-- The loop: `k` passes are left, `i` have been done.  Result: the weight, the record and `i` of the last pass
plus one.  `admom_nb.py:31-103`. -/
def amLoop (conf : AMConf) (orig : ℝ × ℝ) (pixels : List Pixel) :
    ℕ → ℕ → AMWt → AMRes → Option (ℝ × ℝ × ℝ) → AMWt × AMRes × Except PyErr ℕ
  | 0, i, w, res, _ => (w, res, .ok i)
  | k + 1, i, w, res, old =>
      match amIter conf orig pixels w res old with
      | (w', res', .error e) => (w', res', .error e)
      | (w', res', .ok .brk) => (w', res', .ok (i + 1))
      | (w', res', .ok (.next e1 e2 T)) => amLoop conf orig pixels k (i + 1) w' res' (some (e1, e2, T))

/-- `admom_nb.py:105-108`. -/
def amFinish (conf : AMConf) (res : AMRes) (numiter : ℕ) : AMRes :=
  let res := { res with numiter := numiter }
  if (res.numiter : ℤ) = conf.maxiter then { res with flags := Flags.MAXITER } else res

/-- `admom_nb.py:13-108` `admom`.  With `maxiter <= 0` the loop variable is read without having been assigned:
the source has an `UnboundLocalError` there, which is what the model gives (the compiled code reads an
arbitrary number). -/
def admomNb (conf : AMConf) (w : AMWt) (pixels : List Pixel) (res : AMRes) : AMWt × AMRes × Except PyErr Unit :=
  if conf.maxiter ≤ 0 then (w, res, .error .unbound)
  else match amLoop conf (w.g.row, w.g.col) pixels conf.maxiter.toNat 0 w res none with
    | (w', res', .error e) => (w', res', .error e)
    | (w', res', .ok n) => (w', amFinish conf res' n, .ok ())

/-! ### `admom.py` -/

/-- The dictionary of `get_result`, `admom.py:406-568`.  Not stored: the flag strings (functions of the flags),
`sums_norm` (a copy of `wsum`), `e`, `e_err` and `e_cov` (made from `e1, e2, e1err, e2err`). -/
structure AMOut where
  flags : ℕ
  numiter : ℕ
  npix : ℕ
  fluxFlags : ℕ
  TFlags : ℕ
  rho4Flags : ℕ
  wsum : ℝ
  sums : Fin 7 → ℝ
  sumsCov : Fin 7 → Fin 7 → ℝ
  pars : List Fl
  flux : Fl
  fluxMean : Fl
  fluxErr : Fl
  s2n : Fl
  T : Fl
  Terr : Fl
  rho4 : Fl
  rho4Err : Fl
  e1 : Fl
  e2 : Fl
  e1err : Fl
  e2err : Fl

/-- `admom.py:418-458`: copies, defaults, and what is set whenever the flags are zero. -/
def amBase (a : AMRes) : AMOut :=
  let fm : Fl := .fin (a.sums 5) / .fin a.wsum
  { flags := a.flags, numiter := a.numiter, npix := a.npix, fluxFlags := 0, TFlags := 0, rho4Flags := 0,
    wsum := a.wsum, sums := a.sums, sumsCov := a.sumsCov,
    pars := if a.flags = 0 then a.pars.set 5 fm else a.pars,
    flux := .nan, fluxMean := if a.flags = 0 then fm else .nan, fluxErr := .nan, s2n := .nan,
    T := if a.flags = 0 then a.pars.getD 4 .nan else .nan, Terr := .nan,
    rho4 := if a.flags = 0 then a.rho4 else .nan, rho4Err := .nan,
    e1 := .nan, e2 := .nan, e1err := .nan, e2err := .nan }

/-- `admom.py:460-478`: the flux. -/
def amFlux (jacArea : ℝ) (wgtNorm : Fl) (o : AMOut) : AMOut :=
  open Classical in
  if o.flags = 0 then
    if Fl.lt (.fin gmixLowDetval) o.T then
      let fnorm := .fin jacArea * wgtNorm * .fin o.wsum
      let flux := .fin (o.sums 5) / fnorm
      if o.sumsCov 5 5 > 0 then
        let ferr := (Fl.fin (o.sumsCov 5 5)).sqrt / fnorm
        { o with flux := flux, fluxErr := ferr, s2n := flux / ferr }
      else { o with flux := flux, fluxFlags := Flags.NONPOS_VAR }
    else { o with fluxFlags := Flags.NONPOS_SIZE }
  else { o with fluxFlags := o.flags }

/-- `get_ratio_error` of two sums.  `admom.py:485-544`. -/
def sumsRatioError (o : AMOut) (i j : Fin 7) : Except PyErr Fl :=
  getRatioError (.fin (o.sums i)) (.fin (o.sums j)) (.fin (o.sumsCov i i)) (.fin (o.sumsCov j j))
    (.fin (o.sumsCov i j))

/-- `admom.py:480-496, 516-517`: the error of T. -/
def amT (o : AMOut) : Except PyErr AMOut :=
  if o.flags = 0 then
    if o.sumsCov 4 4 > 0 ∧ o.sumsCov 5 5 > 0 then
      if o.sums 5 > 0 then
        (sumsRatioError o 4 5).map fun e => { o with Terr := .fin 4 * e }
      else .ok { o with TFlags := Flags.NONPOS_FLUX }
    else .ok { o with TFlags := Flags.NONPOS_VAR }
  else .ok { o with TFlags := o.flags }

/-- `admom.py:498-514, 518`: rho4. -/
def amRho4 (o : AMOut) : Except PyErr AMOut :=
  if o.flags = 0 then
    if o.sumsCov 6 6 > 0 ∧ o.sumsCov 5 5 > 0 then
      if o.sums 5 > 0 then
        (sumsRatioError o 6 5).map fun e =>
          { o with rho4 := .fin (o.sums 6) / .fin (o.sums 5), rho4Err := .fin 4 * e }
      else .ok { o with rho4Flags := Flags.NONPOS_FLUX }
    else .ok { o with rho4Flags := Flags.NONPOS_VAR }
  else .ok { o with rho4Flags := o.flags }

/-- `admom.py:520-522`: the variances of the sums 2 to 6. -/
def amVarFlag (o : AMOut) : AMOut :=
  open Classical in
  if ∀ i : Fin 7, 2 ≤ i.val → o.sumsCov i i > 0 then o else { o with flags := o.flags ||| Flags.NONPOS_VAR }

/-- `admom.py:546-555`: the errors of the shape are kept if both are finite. -/
def amShapeErr (o : AMOut) (e1 e2 e1err e2err : Fl) : AMOut :=
  open Classical in
  if ¬ e1err.isFinite ∨ ¬ e2err.isFinite then
    { o with e1 := e1, e2 := e2, e1err := .nan, e2err := .nan,
             flags := o.flags ||| Flags.NONPOS_SHAPE_VAR }
  else { o with e1 := e1, e2 := e2, e1err := e1err, e2err := e2err }

/-- `admom.py:524-561`: the shape and its errors. -/
def amShape (o : AMOut) : Except PyErr AMOut :=
  open Classical in
  if o.flags = 0 then
    if o.sums 5 > 0 then
      if Fl.lt (.fin 0) o.T then
        let e1 := o.pars.getD 2 .nan / o.T
        let e2 := o.pars.getD 3 .nan / o.T
        (sumsRatioError o 2 4).bind fun r1 => (sumsRatioError o 3 4).map fun r2 =>
          amShapeErr o e1 e2 (.fin 2 * r1) (.fin 2 * r2)
      else .ok { o with flags := o.flags ||| Flags.NONPOS_SIZE }
    else .ok { o with flags := o.flags ||| Flags.NONPOS_FLUX }
  else .ok o

/-- `admom.py:406-568` `get_result`. -/
def amGetResult (a : AMRes) (jacArea : ℝ) (wgtNorm : Fl) : Except PyErr AMOut :=
  (amT (amFlux jacArea wgtNorm (amBase a))).bind fun o =>
  (amRho4 o).bind fun o => amShape (amVarFlag o)

/-- `wt_gmix["norm"][0]`.  `admom.py:358`. -/
def amNorm (g : Gauss) : Fl :=
  match g.d with
  | none => .nan
  | some d => .fin d.norm

/-- `admom.py:325-360` `AdmomFitter.go` for an Observation with pixels `pixels` and a Jacobian of area `area`,
and a mixture as guess: the guess mixture as it is left, and the result. -/
def admomGo (conf : AMConf) (pixels : List Pixel) (area : ℝ) (guess : AMWt) : AMWt × Except PyErr AMOut :=
  match admomNb conf guess pixels AMRes.zero with
  | (w, res, .ok _) => (w, amGetResult res area (amNorm w.g))
  | (w, res, .error .gmixRange) =>
      (w, amGetResult { res with flags := Flags.GMIX_RANGE_ERROR } area (amNorm w.g))
  | (w, _, .error e) => (w, .error e)

/-- `pars.copy()[i]` as a number; NaN parameters do not occur with zero flags.  `admom.py:247`. -/
def parAt (pars : List Fl) (i : ℕ) : Option ℝ :=
  match pars[i]? with
  | some (.fin x) => some x
  | _ => none

/-- `admom.py:236-253` `AdmomResult.get_gmix`.  `none`: the shape conversion works on NaN (no result with
zero flags has that). -/
def amGetGmix (o : AMOut) : Option (Except PyErr GMixObj) :=
  if o.flags ≠ 0 then some (.error .runtime)
  else
    match parAt o.pars 0, parAt o.pars 1, parAt o.pars 2, parAt o.pars 3, parAt o.pars 4 with
    | some row, some col, some p2, some p3, some T =>
        if T = 0 then none
        else some ((e1e2ToG1G2 (p2 / T) (p3 / T)).bind fun g =>
          newGMixModel [row, col, g.1, g.2, T, 1.0] (.str "gauss"))
    | _, _, _, _, _ => none

/-- `admom.py:392-403` `_generate_guess` for the numbers the generator returns: two offsets, two shapes and a
factor. -/
def amGenerateGuess (Tguess : ℝ) (drow dcol g1 g2 f : ℝ) : Except PyErr GMixObj :=
  newGMixModel [drow, dcol, g1, g2, Tguess * (1.0 + f), 1.0] (.str "gauss")

/-- The loop of `find_cen_admom`, `admom.py:149-157`.  `recentre i` is what lines 154-157 do to the weight after
try `i` failed: `set_cen` to the random position that the generator returns, or nothing when `ntry` is 1.
Result: `res` of the last try, `none` when there was none. -/
def findCenLoop (conf : AMConf) (pixels : List Pixel) (area : ℝ) (recentre : ℕ → AMWt → Except PyErr AMWt) :
    ℕ → ℕ → AMWt → Option AMOut → Except PyErr (Option AMOut)
  | 0, _, _, last => .ok last
  | k + 1, i, w, _ =>
      match admomGo { conf with cenonly := true } pixels area w with
      | (_, .error e) => .error e
      | (w', .ok o) =>
          if o.flags = 0 then .ok (some o)
          else (recentre i w').bind fun w'' => findCenLoop conf pixels area recentre k (i + 1) w'' (some o)

/-- `res.get_gmix().get_cen()`, `admom.py:160`; `none` is NaN. -/
def amCen (o : AMOut) : Except PyErr (Option (ℝ × ℝ)) :=
  match amGetGmix o with
  | none => .ok none
  | some (.error e) => .error e
  | some (.ok g) => .ok (getCen g.data)

/-- `admom.py:74-164` `find_cen_admom` from a weight `wt` (a copy of the caller's, or a new round gaussian):
the result of the last try and its `cen` (`none` is `[nan, nan]`).  `ntry <= 0` leaves `res` unassigned. -/
def findCenAdmom (conf : AMConf) (pixels : List Pixel) (area : ℝ) (recentre : ℕ → AMWt → Except PyErr AMWt)
    (ntry : ℤ) (haveRng : Bool) (wt : Option AMWt) : Except PyErr (AMOut × Option (ℝ × ℝ)) :=
  if ntry > 1 ∧ haveRng = false then .error .value
  else match wt with
    | none => .error .value
    | some w =>
        (findCenLoop conf pixels area (if ntry > 1 then recentre else fun _ w => .ok w) ntry.toNat 0 w none).bind
          fun r => match r with
            | none => .error .unbound
            | some o => if o.flags = 0 then (amCen o).map fun c => (o, c) else .ok (o, none)

end

end Ngmix
