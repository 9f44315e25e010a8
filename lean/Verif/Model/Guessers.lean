import Verif.Model.Shape
import Verif.Model.JointPrior
import Verif.Model.PSFFlux
import Verif.Model.WSums

/-!
# Model of `/repo/ngmix/guessers.py`

Arrays of guesses are lists of rows.  The random state is a state of any type with a function that draws a number between 0
and 1; a prior draws from the same state.  A function that draws is a function of the state.  Loops that draw until a
condition holds take a bound on the number of passes and are `none` when that is reached.
-/

namespace Ngmix

open JointPrior (colSet)

noncomputable section

/-- `numpy.random.RandomState`: one uniform draw between 0 and 1.  `guessers.py:31-36`: the attribute `rng`. -/
structure URng (σ : Type) where
  unit : σ → ℝ × σ

/-- A computation that draws random numbers.  All `__call__` methods of `guessers.py:14-1222`. -/
abbrev GM (σ α : Type) := σ → Except PyErr (α × σ)

/-- Sequencing.  Statement order in `guessers.py:14-1222`. -/
def GM.andThen {σ α β : Type} (m : GM σ α) (f : α → GM σ β) : GM σ β := fun s => (m s).bind fun x => f x.1 x.2

/-- `rng.uniform(low, high)`.  `guessers.py:882-896`. -/
def URng.uniform {σ : Type} (r : URng σ) (low high : ℝ) (s : σ) : ℝ × σ :=
  (low + (high - low) * (r.unit s).1, (r.unit s).2)

/-- `rng.uniform(low, high, size=n)`.  `guessers.py:57-66`. -/
def URng.uniforms {σ : Type} (r : URng σ) (low high : ℝ) : ℕ → σ → List ℝ × σ
  | 0, s => ([], s)
  | n + 1, s =>
      let x := r.uniform low high s
      let xs := URng.uniforms r low high n x.2
      (x.1 :: xs.1, xs.2)

/-- What the guessers use of a joint prior: `get_lnprob_scalar`, `sample()` and `sample(n)`.  `guessers.py:1245-1299`. -/
structure GuessPrior (σ : Type) where
  lnprob : List ℝ → Except PyErr Fl
  sample : σ → List ℝ × σ
  sampleN : ℕ → σ → List (List ℝ) × σ

/-! ### Fixing guesses by the prior -/

/-- The test of one guess, `guessers.py:1253-1261`, `:1285-1293`: `lnp <= -inf`, or a range error; other errors escape. -/
def badGuess {σ : Type} (p : GuessPrior σ) (row : List ℝ) : Except PyErr Bool :=
  match p.lnprob row with
  | .ok .ninf => .ok true
  | .ok _ => .ok false
  | .error .gmixRange => .ok true
  | .error e => .error e

/-- `guess[j, :] = prior.sample()`, `guessers.py:1297`; numpy refuses other lengths (apart from length 1, not modelled). -/
def putAll (row new : List ℝ) : Except PyErr (List ℝ) :=
  if new.length = row.length then .ok new else .error .value

/-- `guess[j, 4:] = tguess[4:]`, `guessers.py:1266-1267`. -/
def putTail (row new : List ℝ) : Except PyErr (List ℝ) :=
  if (new.drop 4).length = (row.drop 4).length then .ok (row.take 4 ++ new.drop 4) else .error .value

/-- The tries on one row: `_fix_guess` `guessers.py:1284-1299` with `put = putAll`, `_fix_guess_TFlux` `:1252-1272` with
`put = putTail`.  (`itry < ntry` always holds there, so its other branch is dead.) -/
def fixRow {σ : Type} (p : GuessPrior σ) (put : List ℝ → List ℝ → Except PyErr (List ℝ)) : ℕ → List ℝ → GM σ (List ℝ)
  | 0, row, s => .ok (row, s)
  | n + 1, row, s =>
      match badGuess p row with
      | .error e => .error e
      | .ok false => .ok (row, s)
      | .ok true => (put row (p.sample s).1).bind fun row' => fixRow p put n row' (p.sample s).2

/-- The loop over rows, with four tries each (`guessers.py:1245-1251`, `:1275-1283`). -/
def fixRows {σ : Type} (p : GuessPrior σ) (put : List ℝ → List ℝ → Except PyErr (List ℝ)) : List (List ℝ) → GM σ (List (List ℝ))
  | [], s => .ok ([], s)
  | row :: rows, s => (fixRow p put 4 row s).bind fun x => (fixRows p put rows x.2).map fun y => (x.1 :: y.1, y.2)

/-- `if self.prior is not None: _fix_guess(...)`, `guessers.py:69-70`, `:561-562`. -/
def fixOpt {σ : Type} (p : Option (GuessPrior σ)) (put : List ℝ → List ℝ → Except PyErr (List ℝ)) (rows : List (List ℝ)) :
    GM σ (List (List ℝ)) :=
  match p with
  | none => fun s => .ok (rows, s)
  | some p => fixRows p put rows

/-! ### Columns -/

/-- An assignment `guess[:, idx] = f(rng.uniform(low, high, size=nrand))`.  `guessers.py:57-66, 124-134`. -/
structure GCol where
  idx : ℕ
  low : ℝ
  high : ℝ
  f : ℝ → ℝ

/-- Assignment of a column.  `guessers.py:57-66`. -/
def putCol (i : ℕ) : List (List ℝ) → List ℝ → Except PyErr (List (List ℝ))
  | row :: rows, v :: vs => (colSet row i v).bind fun row' => (putCol i rows vs).map fun rows' => row' :: rows'
  | rows, _ => .ok rows

/-- One column assignment.  `guessers.py:57-66`. -/
def fillCol {σ : Type} (r : URng σ) (c : GCol) (rows : List (List ℝ)) : GM σ (List (List ℝ)) := fun s =>
  let x := r.uniforms c.low c.high rows.length s
  (putCol c.idx rows (x.1.map c.f)).map fun rows' => (rows', x.2)

/-- Successive column assignments.  `guessers.py:57-66, 124-134, 186-197`. -/
def fillCols {σ : Type} (r : URng σ) : List GCol → List (List ℝ) → GM σ (List (List ℝ))
  | [], rows => fun s => .ok (rows, s)
  | c :: cs, rows => (fillCol r c rows).andThen (fillCols r cs)

/-- `np.zeros((nrand, npars))`, `guessers.py:57`. -/
def zeroRows (nrand npars : ℕ) : List (List ℝ) := List.replicate nrand (List.replicate npars 0)

/-- Columns for the bands, starting at `start` (`guessers.py:64-67` and the like). -/
def bandCols (low high : ℝ) (f : ℝ → ℝ → ℝ) (start : ℕ) : List ℝ → List GCol
  | [] => []
  | flux :: fluxes => ⟨start, low, high, f flux⟩ :: bandCols low high f (start + 1) fluxes

/-- Columns of `guessers.py:58-67`, `:127-136`. -/
def tfluxCols (T : ℝ) (fluxes : List ℝ) : List GCol :=
  [⟨0, -0.01, 0.01, id⟩, ⟨1, -0.01, 0.01, id⟩, ⟨2, -0.02, 0.02, id⟩, ⟨3, -0.02, 0.02, id⟩, ⟨4, 0.9, 1.1, fun x => T * x⟩] ++
    bandCols 0.9 1.1 (fun flux x => flux * x) 5 fluxes

/-- `if nrand == 1: guess = guess[0, :]`, `guessers.py:72-73`. -/
inductive GuessOut
  | one (row : List ℝ)
  | many (rows : List (List ℝ))

/-- As a list of rows.  `guessers.py:71-75`. -/
def GuessOut.rows : GuessOut → List (List ℝ)
  | .one row => [row]
  | .many rows => rows

/-- Squeezing, `guessers.py:72-75`. -/
def squeeze (nrand : ℕ) (rows : List (List ℝ)) : GuessOut :=
  match nrand, rows with
  | 1, [row] => .one row
  | _, rows => .many rows

/-- Make the array, fill it, fix it and squeeze it.  `guessers.py:54-75`. -/
def guessRows {σ : Type} (r : URng σ) (nrand : ℕ) (start : GM σ (List (List ℝ))) (cols : List GCol)
    (fix : List (List ℝ) → GM σ (List (List ℝ))) : GM σ GuessOut :=
  (start.andThen (fillCols r cols)).andThen fun rows => (fix rows).andThen fun rows' s => .ok (squeeze nrand rows', s)

/-- `guessers.py:31-75` `TFluxGuesser` constructed and called. -/
def tfluxGuess {σ : Type} (r : URng σ) (T : ℝ) (fluxes : List ℝ) (prior : Option (GuessPrior σ)) (nrand : ℕ) : GM σ GuessOut :=
  guessRows r nrand (fun s => .ok (zeroRows nrand (5 + fluxes.length), s)) (tfluxCols T fluxes) (fixOpt prior putAll)

/-- `guess = self.prior.sample(nrand)`, `guessers.py:186`, `:309`, `:357`, `:411`, `:467`. -/
def priorRows {σ : Type} (p : GuessPrior σ) (nrand : ℕ) : GM σ (List (List ℝ)) := fun s => .ok (p.sampleN nrand s)

/-- Columns of `guessers.py:188-194` (T with the factor `1 + r`, fluxes with a factor between 0.9 and 1.1). -/
def tpsfPriorCols (T : ℝ) (fluxes : List ℝ) : List GCol :=
  ⟨4, -0.1, 0.1, fun x => T * (1.0 + x)⟩ :: bandCols 0.9 1.1 (fun flux x => flux * x) 5 fluxes

/-- Columns of `guessers.py:311-316`. -/
def tfluxPriorCols (T : ℝ) (fluxes : List ℝ) : List GCol :=
  ⟨4, -0.1, 0.1, fun x => T * (1.0 + x)⟩ :: bandCols (-0.1) 0.1 (fun flux x => flux * (1.0 + x)) 5 fluxes

/-- Columns of `guessers.py:361-369`, `:415-423` (bdf, fluxes from 6) and `:471-479` (bd, fluxes from 7). -/
def bdCols (T : ℝ) (first : ℕ) (fluxes : List ℝ) : List GCol :=
  ⟨4, -0.1, 0.1, fun x => T * (1.0 + x)⟩ :: ⟨5, 0.4, 0.6, id⟩ ::
    bandCols (-0.1) 0.1 (fun flux x => flux * (1.0 + x)) first fluxes

/-- `guessers.py:278-322` `TFluxAndPriorGuesser`; the `lfluxes` of `:286-289` are never used. -/
def tfluxPriorGuess {σ : Type} (r : URng σ) (T : ℝ) (fluxes : List ℝ) (p : GuessPrior σ) (nrand : ℕ) : GM σ GuessOut :=
  guessRows r nrand (priorRows p nrand) (tfluxPriorCols T fluxes) (fixRows p putTail)

/-- `guessers.py:393-429` `BDFGuesser`. -/
def bdfGuess {σ : Type} (r : URng σ) (T : ℝ) (fluxes : List ℝ) (p : GuessPrior σ) (nrand : ℕ) : GM σ GuessOut :=
  guessRows r nrand (priorRows p nrand) (bdCols T 6 fluxes) (fixRows p putAll)

/-- `guessers.py:446-486` `BDGuesser`. -/
def bdGuess {σ : Type} (r : URng σ) (T : ℝ) (fluxes : List ℝ) (p : GuessPrior σ) (nrand : ℕ) : GM σ GuessOut :=
  guessRows r nrand (priorRows p nrand) (bdCols T 7 fluxes) (fixRows p putAll)

/-- `guessers.py:676-686` `PriorGuesser`. -/
def priorGuess {σ : Type} (p : GuessPrior σ) : Option ℕ → GM σ GuessOut
  | none => fun s => .ok (.one (p.sample s).1, (p.sample s).2)
  | some n => fun s => .ok (.many (p.sampleN n s).1, (p.sampleN n s).2)

/-- Columns of `guessers.py:646-651`, `:739-744`. -/
def r50Cols (r50 : ℝ) : List GCol :=
  [⟨0, -1.0, 1.0, fun x => 0.01 * x⟩, ⟨1, -1.0, 1.0, fun x => 0.01 * x⟩, ⟨2, -1.0, 1.0, fun x => 0.02 * x⟩,
   ⟨3, -1.0, 1.0, fun x => 0.02 * x⟩, ⟨4, -1.0, 1.0, fun x => r50 * (1.0 + 0.1 * x)⟩]

/-- Columns of the fluxes, `guessers.py:654-657`, `:754-757`. -/
def r50Bands (start : ℕ) (fluxes : List ℝ) : List GCol :=
  bandCols (-1.0) 1.0 (fun flux x => flux * (1.0 + 0.1 * x)) start fluxes

/-- `guessers.py:619-620` `R50FluxGuesser.__init__`. -/
def r50Check (r50 : ℝ) : Except PyErr Unit := if r50 < 0.0 then .error .gmixRange else .ok ()

/-- `guessers.py:616-664` `R50FluxGuesser` constructed and called. -/
def r50FluxGuess {σ : Type} (r : URng σ) (r50 : ℝ) (fluxes : List ℝ) (prior : Option (GuessPrior σ)) (nrand : ℕ) :
    GM σ GuessOut := fun s =>
  (r50Check r50).bind fun _ =>
    guessRows r nrand (fun s => .ok (zeroRows nrand (5 + fluxes.length), s)) (r50Cols r50 ++ r50Bands 5 fluxes)
      (fixOpt prior putAll) s

/-- `guessers.py:705`, `NUMIN`. -/
def nuMin : ℝ := -0.99

/-- `guessers.py:706`, `NUMAX`. -/
def nuMax : ℝ := 3.5

/-- `guessers.py:713-718`: the index is moved into the allowed range. -/
def nuClamp (nu : ℝ) : ℝ := if nu < nuMin then nuMin else if nu > nuMax then nuMax else nu

/-- The loop of `guessers.py:747-750`. -/
def nuDraw {σ : Type} (r : URng σ) (nu : ℝ) : ℕ → σ → Option (ℝ × σ)
  | 0, _ => none
  | n + 1, s =>
      let x := r.uniform (-1.0) 1.0 s
      let guess := nu * (1.0 + 0.1 * x.1)
      if guess > nuMin ∧ guess < nuMax then some (guess, x.2) else nuDraw r nu n x.2

/-- `guessers.py:746-751`. -/
def nuRows {σ : Type} (r : URng σ) (nu : ℝ) (fuel : ℕ) : List (List ℝ) → σ → Option (Except PyErr (List (List ℝ) × σ))
  | [], s => some (.ok ([], s))
  | row :: rows, s =>
      match nuDraw r nu fuel s with
      | none => none
      | some x =>
          match colSet row 5 x.1 with
          | .error e => some (.error e)
          | .ok row' => (nuRows r nu fuel rows x.2).map fun y => y.map fun z => (row' :: z.1, z.2)

/-- `guessers.py:708-764` `R50NuFluxGuesser` constructed and called. -/
def r50NuFluxGuess {σ : Type} (r : URng σ) (r50 nu : ℝ) (fluxes : List ℝ) (prior : Option (GuessPrior σ)) (nrand fuel : ℕ) (s : σ) :
    Option (Except PyErr (GuessOut × σ)) :=
  match (r50Check r50).bind fun _ => fillCols r (r50Cols r50) (zeroRows nrand (6 + fluxes.length)) s with
  | .error e => some (.error e)
  | .ok x => (nuRows r (nuClamp nu) fuel x.1 x.2).map fun y => y.bind fun z =>
      ((fillCols r (r50Bands 6 fluxes) z.1).andThen fun rows => (fixOpt prior putAll rows).andThen fun rows' s' =>
        .ok (squeeze nrand rows', s')) z.2

/-! ### Shapes -/

/-- One round of `guessers.py:587-594`, repeated while the sheared shape is out of range.  A shear that makes the denominator
of the addition formula vanish (only possible for an offset longer than 1) gives NaN or ZeroDivisionError; the model says
ZeroDivisionError. -/
def shapeDraw {σ : Type} (r : URng σ) (w1 w2 : ℝ) (sh : ShapeObj) : ℕ → σ → Option (Except PyErr ((ℝ × ℝ) × σ))
  | 0, _ => none
  | n + 1, s =>
      let x := r.uniform (-1.0) 1.0 s
      let y := r.uniform (-1.0) 1.0 x.2
      let o1 := w1 * x.1
      let o2 := w2 * y.1
      match sh.getSheared (.scalars o1 (some o2)) with
      | .ok new => some (.ok ((new.g1, new.g2), y.2))
      | .error .gmixRange => shapeDraw r w1 w2 sh n y.2
      | .error e => some (.error e)

/-- The loop of `guessers.py:585-597`. -/
def shapeDraws {σ : Type} (r : URng σ) (w1 w2 : ℝ) (sh : ShapeObj) (fuel : ℕ) :
    ℕ → σ → Option (Except PyErr (List (ℝ × ℝ) × σ))
  | 0, s => some (.ok ([], s))
  | n + 1, s =>
      match shapeDraw r w1 w2 sh fuel s with
      | none => none
      | some (.error e) => some (.error e)
      | some (.ok x) => (shapeDraws r w1 w2 sh fuel n x.2).map fun y => y.map fun z => (x.1 :: z.1, z.2)

/-- `guessers.py:575-580`: a shape larger than the maximum is scaled down to it. -/
def shapeClamp (g1 g2 max : ℝ) : ℝ × ℝ :=
  let g := Real.sqrt (g1 ^ 2 + g2 ^ 2)
  if g > max then (g1 * (max / g), g2 * (max / g)) else (g1, g2)

/-- `guessers.py:570-599` `get_shape_guess`. -/
def getShapeGuess {σ : Type} (r : URng σ) (g1 g2 : ℝ) (nrand : ℕ) (w1 w2 max : ℝ) (fuel : ℕ) (s : σ) :
    Option (Except PyErr (List (ℝ × ℝ) × σ)) :=
  match ShapeObj.new (shapeClamp g1 g2 max).1 (shapeClamp g1 g2 max).2 with
  | .error e => some (.error e)
  | .ok sh => shapeDraws r w1 w2 sh fuel nrand s

/-! ### `ParsGuesser` -/

/-- `guessers.py:513-517`: default widths. -/
def parsWidths (pars : List ℝ) : Option (List ℝ) → List ℝ
  | some w => w
  | none => (List.range pars.length).map fun i => if i < 2 then 0.02 else 0.1

/-- Columns 0, 1, `guessers.py:543-544`. -/
def parsCenCols (pars widths : List ℝ) : List GCol :=
  (List.range 2).map fun i => ⟨i, -1.0, 1.0, fun x => pars.getD i 0 + widths.getD i 0 * x⟩

/-- Columns from 4, `guessers.py:558-559`. -/
def parsTailCols (pars widths : List ℝ) : List GCol :=
  (List.range (pars.length - 4)).map fun i => ⟨4 + i, -1.0, 1.0, fun x => pars.getD (4 + i) 0 * (1.0 + widths.getD (4 + i) 0 * x)⟩

/-- `guess[:, 2] = ...; guess[:, 3] = ...`, `guessers.py:555-556`. -/
def putShapes (rows : List (List ℝ)) (shapes : List (ℝ × ℝ)) : Except PyErr (List (List ℝ)) :=
  (putCol 2 rows (shapes.map Prod.fst)).bind fun rows' => putCol 3 rows' (shapes.map Prod.snd)

/-- `if is_scalar: guess = guess[0, :]`, `guessers.py:564-567`. -/
def squeezeNone (nrand : Option ℕ) (rows : List (List ℝ)) : GuessOut :=
  match nrand, rows with
  | none, row :: _ => .one row
  | _, rows => .many rows

/-- `guessers.py:506-567` `ParsGuesser` constructed and called, with `nrand=None` giving one row.  `pars` and `widths` have at least four
entries and the same length. -/
def parsGuess {σ : Type} (r : URng σ) (pars : List ℝ) (prior : Option (GuessPrior σ)) (widths : Option (List ℝ))
    (nrand : Option ℕ) (fuel : ℕ) (s : σ) : Option (Except PyErr (GuessOut × σ)) :=
  let w := parsWidths pars widths
  let n := nrand.getD 1
  match fillCols r (parsCenCols pars w) (zeroRows n pars.length) s with
  | .error e => some (.error e)
  | .ok x =>
      (getShapeGuess r (pars.getD 2 0) (pars.getD 3 0) n (w.getD 2 0) (w.getD 3 0) 0.8 fuel x.2).map fun y => y.bind fun z =>
        (putShapes x.1 z.1).bind fun rows =>
          ((fillCols r (parsTailCols pars w) rows).andThen fun rows => (fixOpt prior putAll rows).andThen fun rows' s' =>
            .ok (squeezeNone nrand rows', s')) z.2

/-! ### Psf fluxes -/

/-- `(flags == 0) & np.isfinite(flux)`, `guessers.py:243`: the flux of a band if it can be used. -/
def usableFlux (res : PFResult) : Option ℝ :=
  match res.flags, res.flux with
  | 0, .fin x => some x
  | _, _ => none

/-- The loop over bands of `guessers.py:234-244`: the flux of each band that is usable. -/
def bandFluxes : List (List PFObs) → Except PyErr (List (Option ℝ))
  | [] => .ok []
  | b :: bs => (psfFlux b true true).bind fun res => (bandFluxes bs).map fun fs => usableFlux res :: fs

/-- `flux[wgood].mean()`, `guessers.py:255`. -/
def goodMean (fs : List (Option ℝ)) : ℝ := (fs.filterMap id).sum / ((fs.filterMap id).length : ℝ)

/-- `flux[wbad] = flux[wgood].mean()*fac`, `guessers.py:253-255`. -/
def fillBad (mean : ℝ) : List (Option ℝ) → List ℝ → List ℝ
  | [], _ => []
  | some x :: fs, draws => x :: fillBad mean fs draws
  | none :: fs, d :: draws => mean * (1.0 + d) :: fillBad mean fs draws
  | none :: fs, [] => mean :: fillBad mean fs []

/-- `guessers.py:205-261` `_get_psf_fluxes`, the fluxes. -/
def getPsfFluxes {σ : Type} (r : URng σ) (bands : List (List PFObs)) : GM σ (List ℝ) := fun s =>
  (bandFluxes bands).bind fun fs =>
    if (fs.filterMap id).length ≠ fs.length then
      if (fs.filterMap id).length = 0 then .error .psfFlux
      else
        let d := r.uniforms (-0.1) 0.1 (fs.length - (fs.filterMap id).length) s
        .ok (fillBad (goodMean fs) fs d.1, d.2)
    else .ok (fs.filterMap id, s)

/-- The cache of `TPSFFluxGuesser`, `guessers.py:96-97`. -/
structure FluxCache where
  idLast : Option ℕ
  fluxes : Option (List ℝ)

/-- `guessers.py:99-105` `TPSFFluxGuesser._get_psf_fluxes`: the cache left behind, and the fluxes.  `compute` is
`_get_psf_fluxes` of the observation passed, `oid` its identity; `None` has no `size` (`:123`). -/
def cachedFluxes {σ : Type} (c : FluxCache) (oid : ℕ) (compute : GM σ (List ℝ)) (s : σ) : FluxCache × Except PyErr (List ℝ × σ) :=
  if c.idLast ≠ some oid then
    match compute s with
    | .error e => (⟨some oid, c.fluxes⟩, .error e)
    | .ok x => (⟨some oid, some x.1⟩, .ok x)
  else
    match c.fluxes with
    | none => (c, .error .attribute)
    | some f => (c, .ok (f, s))

/-- `guessers.py:107-144` `TPSFFluxGuesser.__call__`. -/
def tpsfFluxGuess {σ : Type} (r : URng σ) (T : ℝ) (prior : Option (GuessPrior σ)) (c : FluxCache) (oid : ℕ)
    (bands : List (List PFObs)) (nrand : ℕ) (s : σ) : FluxCache × Except PyErr (GuessOut × σ) :=
  match cachedFluxes c oid (getPsfFluxes r bands) s with
  | (c', .error e) => (c', .error e)
  | (c', .ok x) => (c', tfluxGuess r T x.1 prior nrand x.2)

/-- `guessers.py:168-202` `TPSFFluxAndPriorGuesser.__call__`. -/
def tpsfFluxPriorGuess {σ : Type} (r : URng σ) (T : ℝ) (p : GuessPrior σ) (c : FluxCache) (oid : ℕ)
    (bands : List (List PFObs)) (nrand : ℕ) (s : σ) : FluxCache × Except PyErr (GuessOut × σ) :=
  match cachedFluxes c oid (getPsfFluxes r bands) s with
  | (c', .error e) => (c', .error e)
  | (c', .ok x) => (c', guessRows r nrand (priorRows p nrand) (tpsfPriorCols T x.1) (fixRows p putTail) x.2)

/-- `guessers.py:344-376` `BDFPSFFluxGuesser.__call__`. -/
def bdfPsfFluxGuess {σ : Type} (r : URng σ) (T : ℝ) (p : GuessPrior σ) (c : FluxCache) (oid : ℕ)
    (bands : List (List PFObs)) (nrand : ℕ) (s : σ) : FluxCache × Except PyErr (GuessOut × σ) :=
  match cachedFluxes c oid (getPsfFluxes r bands) s with
  | (c', .error e) => (c', .error e)
  | (c', .ok x) => (c', bdfGuess r T x.1 p nrand x.2)

/-! ### Guesses for psf fits -/

/-- One entry of a parameter array: a number, or a function of a uniform draw.  `guessers.py:882-1017`. -/
inductive GEntry
  | const (x : ℝ)
  | draw (low high : ℝ) (f : ℝ → ℝ)

/-- The entries in order.  `guessers.py:882-1017, 1156-1222`. -/
def drawEntries {σ : Type} (r : URng σ) : List GEntry → σ → List ℝ × σ
  | [], s => ([], s)
  | .const x :: es, s =>
      let y := drawEntries r es s
      (x :: y.1, y.2)
  | .draw low high f :: es, s =>
      let u := r.uniform low high s
      let y := drawEntries r es u.2
      (f u.1 :: y.1, y.2)

/-- `x * (1.0 + rng.uniform(low=-0.1, high=0.1))`.  `guessers.py:893-896`. -/
def jitter (x : ℝ) : GEntry := .draw (-0.1) 0.1 fun d => x * (1.0 + d)

/-- The two position entries.  `guessers.py:890-891`. -/
def cenEntries (w : ℝ) : List GEntry := [.draw (-w) w id, .draw (-w) w id]

/-- `guessers.py:882-896` `_get_guess_1gauss`. -/
def em1Entries (flux T : ℝ) : List GEntry :=
  let sigma2 := T / 2
  [.draw 0.9 1.1 fun d => flux * d] ++ cenEntries 0.1 ++
    [jitter sigma2, .draw (-0.2 * sigma2) (0.2 * sigma2) id, jitter sigma2]

/-- One gaussian of `guessers.py:898-919` `_get_guess_2gauss`. -/
def em2Entries (flux sigma2 : ℝ) (pf : ℝ × ℝ) : List GEntry :=
  [.const (pf.1 * flux)] ++ cenEntries 0.1 ++ [jitter (pf.2 * sigma2), .const 0.0, jitter (pf.2 * sigma2)]

/-- One gaussian of `guessers.py:921-1030` (three to five gaussians). -/
def emEntries (flux sigma2 : ℝ) (pf : ℝ × ℝ) : List GEntry :=
  [jitter (flux * pf.1)] ++ cenEntries 0.1 ++ [jitter (pf.2 * sigma2), .draw (-0.01) 0.01 id, jitter (pf.2 * sigma2)]

/-- `guessers.py:1033-1034`, pairs of flux and size. -/
def em2Table : List (ℝ × ℝ) := [(0.596510042804182, 0.5793612389470884), (0.4034898268889178, 1.621860687127999)]

/-- `guessers.py:1036-1039`. -/
def em3Table : List (ℝ × ℝ) :=
  [(0.596510042804182, 0.5793612389470884), (0.4034898268889178, 1.621860687127999), (1.303069003078001e-07, 7.019347162356363)]

/-- The entries of `guessers.py:1041-1046` that are used: the code (`:951-986`) uses number 2 also for the fourth gaussian. -/
def em4Table : List (ℝ × ℝ) :=
  [(0.596510042804182, 0.5793612389470884), (0.4034898268889178, 1.621860687127999), (1.303069003078001e-07, 7.019347162356363),
   (1.303069003078001e-07, 7.019347162356363)]

/-- The entries of `guessers.py:1048-1051` that are used (`:988-1030`): number 2 also for the fourth and fifth gaussian. -/
def em5Table : List (ℝ × ℝ) :=
  [(0.59453032, 0.5), (0.35671819, 1.0), (0.03567182, 3.0), (0.03567182, 3.0), (0.03567182, 3.0)]

/-- `guessers.py:789-800`: the parameter entries by number of gaussians. -/
def emGuessEntries (ngauss : ℕ) (flux T : ℝ) : Except PyErr (List GEntry) :=
  match ngauss with
  | 1 => .ok (em1Entries flux T)
  | 2 => .ok (em2Table.flatMap (em2Entries flux (T / 2)))
  | 3 => .ok (em3Table.flatMap (emEntries flux (T / 2)))
  | 4 => .ok (em4Table.flatMap (emEntries flux (T / 2)))
  | 5 => .ok (em5Table.flatMap (emEntries flux (T / 2)))
  | _ => .error .value

/-- `guessers.py:833-843` `_get_T_flux_default`: `total` is the sum of the image. -/
def defaultTFlux (scale total : ℝ) : ℝ × ℝ := (fwhmToT (scale * 3.5), total)

/-- What these guessers read of an observation: the pixel scale, the sum of the image and the pixels.  `guessers.py:833-880`. -/
structure GObs where
  scale : ℝ
  total : ℝ
  pixels : List Pixel

/-- The end of `guessers.py:845-880`, from `:863`: deweighting.  `none` when a number is not finite (the measured size equals that of the
weight). -/
def deweighted (o : GObs) (Tmeas fluxmeas Tweight : ℝ) : Option (ℝ × ℝ) :=
  let area := o.scale ^ 2
  if TToFwhm Tmeas < o.scale then some (defaultTFlux o.scale o.total)
  else
    open Classical in
    if 1 / Tmeas - 1 / Tweight = 0 then none
    else
      let T := 1.0 / (1 / Tmeas - 1 / Tweight)
      if T < 0 then some (Tmeas, fluxmeas)
      else some (T, fluxmeas * Real.pi * (Tweight + T) / area)

/-- `guessers.py:845-880` `_get_T_flux_from_moms`. -/
def momsTFlux (o : GObs) : Except PyErr (Option (ℝ × ℝ)) :=
  let Tweight := fwhmToT (o.scale * 3.5)
  (newGMixModel [0.0, 0.0, 0.0, 0.0, Tweight, 1.0] (.str "gauss")).bind fun wt =>
    (getWeightedMoments wt.data o.pixels (some 1.0e9) false).2.bind fun w =>
      if w.res.flags ≠ 0 then .ok (some (defaultTFlux o.scale o.total))
      else
        match w.res.T, w.res.flux with
        | .fin Tmeas, .fin flux => .ok (deweighted o Tmeas flux Tweight)
        | _, _ => .ok none

/-- `guessers.py:825-831` `_get_T_flux`. -/
def psfTFlux (fromMoms : Bool) (o : GObs) : Except PyErr (Option (ℝ × ℝ)) :=
  if fromMoms then momsTFlux o else .ok (some (defaultTFlux o.scale o.total))

/-- `guessers.py:783-823` `GMixPSFGuesser` constructed and called; `none` when the numbers are not finite. -/
def gmixPsfGuess {σ : Type} (r : URng σ) (ngauss : ℕ) (fromMoms : Bool) (o : GObs) (s : σ) : Except PyErr (Option (GMixObj × σ)) :=
  if ngauss = 0 ∨ ngauss > 5 then .error .value
  else
    (psfTFlux fromMoms o).bind fun tf =>
      match tf with
      | none => .ok none
      | some tf => (emGuessEntries ngauss tf.2 tf.1).bind fun es =>
          (newGMix none (some (drawEntries r es s).1)).map fun g => some (g, (drawEntries r es s).2)

/-- `guessers.py:1092-1103` `SimplePSFGuesser._get_guess`. -/
def simplePsfEntries (flux T : ℝ) : List GEntry :=
  cenEntries 0.01 ++ cenEntries 0.05 ++ [.draw 0.9 1.1 fun d => T * d, .draw 0.9 1.1 fun d => flux * d]

/-- `guessers.py:1225-1242`: fluxes and sizes by number of gaussians. -/
def moffatTable : ℕ → List (ℝ × ℝ)
  | 2 => [(0.5, 0.48955064), (0.5, 1.50658978)]
  | 3 => [(0.27559669, 0.36123609), (0.55817131, 0.8426139), (0.166232, 2.58747785)]
  | 4 => [(0.44534, 0.541019), (0.366951, 1.19701), (0.10506, 0.282176), (0.0826497, 3.51086)]
  | 5 => [(0.57874897, 0.27831284), (0.32273483, 0.9959897), (0.03327272, 5.86989779), (0.0341253, 5.63590429),
          (0.03111819, 4.17285878)]
  | _ => []

/-- `guessers.py:1148-1222`: coelliptical guesses. -/
def coellipEntries (ngauss : ℕ) (flux T : ℝ) : Except PyErr (List GEntry) :=
  match ngauss with
  | 0 => .error .value
  | 1 => .ok (cenEntries 0.01 ++ cenEntries 0.05 ++ [.draw 0.9 1.1 fun d => T * d, .draw 0.9 1.1 fun d => flux * d])
  | n => if n > 5 then .error .value else
      .ok (cenEntries 0.01 ++ cenEntries 0.05 ++
        ((moffatTable n).map fun pf => .draw 0.99 1.01 fun d => T * pf.2 * d) ++
        ((moffatTable n).map fun pf => .draw 0.99 1.01 fun d => flux * pf.1 * d))

/-- `guessers.py:1068-1103` `SimplePSFGuesser` called. -/
def simplePsfGuess {σ : Type} (r : URng σ) (fromMoms : Bool) (o : GObs) (s : σ) : Except PyErr (Option (List ℝ × σ)) :=
  (psfTFlux fromMoms o).map fun tf => tf.map fun tf => drawEntries r (simplePsfEntries tf.2 tf.1) s

/-- `guessers.py:1122-1222` `CoellipPSFGuesser` constructed and called. -/
def coellipPsfGuess {σ : Type} (r : URng σ) (ngauss : ℕ) (fromMoms : Bool) (o : GObs) (s : σ) :
    Except PyErr (Option (List ℝ × σ)) :=
  if ngauss = 0 ∨ ngauss > 5 then .error .value
  else
    (psfTFlux fromMoms o).bind fun tf =>
      match tf with
      | none => .ok none
      | some tf => (coellipEntries ngauss tf.2 tf.1).map fun es => some (drawEntries r es s)

end

end Ngmix
