import Verif.Model.Admom
import Verif.Model.Guessers

/-!
# Model of the guesses of `/repo/ngmix/admom/admom.py`

How `AdmomFitter.go` gets its weight from a size, and how `find_cen_admom` gets its weight and moves it between tries.
-/

namespace Ngmix

noncomputable section

/-- What can be given to `AdmomFitter.go` as guess: a mixture or a size.  `admom.py:362-368`. -/
inductive AMGuess
  | mix (w : AMWt)
  | size (T : ℝ)

/-- `admom.py:392-403` `_generate_guess`: the five draws, in order, from the generator given or one made once (`admom.py:386-390`). -/
def amDrawGuess {σ : Type} (r : URng σ) (scale T : ℝ) (s : σ) : Except PyErr (GMixObj × σ) :=
  let row := r.uniform (-0.5 * scale) (0.5 * scale) s
  let col := r.uniform (-0.5 * scale) (0.5 * scale) row.2
  let g1 := r.uniform (-0.3) 0.3 col.2
  let g2 := r.uniform (-0.3) 0.3 g1.2
  let f := r.uniform (-0.1) 0.1 g2.2
  (amGenerateGuess T row.1 col.1 g1.1 g2.1 f.1).map fun o => (o, f.2)

/-- `wt_gmix = guess_gmix._data`, `admom.py:347`. -/
def amWeight (o : GMixObj) : Except PyErr AMWt :=
  match o.data with
  | [] => .error .index
  | g :: gs => .ok ⟨g, gs⟩

/-- `admom.py:362-368` `_get_guess`, `:347`. -/
def amGetGuess {σ : Type} (r : URng σ) (scale : ℝ) (guess : AMGuess) (s : σ) : Except PyErr (AMWt × σ) :=
  match guess with
  | .mix w => .ok (w, s)
  | .size T => (amDrawGuess r scale T s).bind fun x => (amWeight x.1).map fun w => (w, x.2)

/-- `admom.py:325-360` `AdmomFitter.go` with either kind of guess: the weight as it is left, the generator, the result. -/
def admomFit {σ : Type} (conf : AMConf) (pixels : List Pixel) (area scale : ℝ) (r : URng σ) (guess : AMGuess) (s : σ) :
    Except PyErr (AMWt × σ × AMOut) :=
  (amGetGuess r scale guess s).bind fun x =>
    let res := admomGo conf pixels area x.1
    res.2.map fun o => (res.1, x.2, o)

/-- The weight of `find_cen_admom`, `admom.py:131-138`: a copy of the mixture, or a round gaussian. -/
def findCenStart (gmix : Option GMixObj) (fwhm : Option ℝ) : Except PyErr AMWt :=
  match gmix, fwhm with
  | some o, _ => (copyGMix o).bind amWeight
  | none, some f => (newGMixModel [0.0, 0.0, 0.0, 0.0, fwhmToT f, 1.0] (.str "gauss")).bind amWeight
  | none, none => .error .value

/-- `admom.py:154-157`: after try `i` failed the weight is moved; `u` are the uniform deviates of the generator in order,
two for each try.  A weight of zero flux would get NaN as centre: that is not modelled (the weight is kept). -/
def findCenMove (scale : ℝ) (u : ℕ → ℝ) (i : ℕ) (w : AMWt) : Except PyErr AMWt :=
  match setCen w.list (-scale / 2 + (scale / 2 - -scale / 2) * u (2 * i))
      (-scale / 2 + (scale / 2 - -scale / 2) * u (2 * i + 1)) with
  | some (g :: gs) => .ok ⟨g, gs⟩
  | _ => .ok w

/-- `admom.py:74-164` `find_cen_admom`; `rng` are the deviates of the generator, if there is one. -/
def findCenRun (conf : AMConf) (pixels : List Pixel) (area scale : ℝ) (ntry : ℤ) (rng : Option (ℕ → ℝ))
    (gmix : Option GMixObj) (fwhm : Option ℝ) : Except PyErr (AMOut × Option (ℝ × ℝ)) :=
  if ntry > 1 ∧ rng = none then .error .value
  else (findCenStart gmix fwhm).bind fun w =>
    findCenAdmom conf pixels area (findCenMove scale (rng.getD fun _ => 0)) ntry rng.isSome (some w)

end

end Ngmix
