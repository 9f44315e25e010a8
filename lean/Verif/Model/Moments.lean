import Verif.Model.Shape

/-!
# Model of `/repo/ngmix/moments.py` lines 64-395 (conversions and sheared moments)

`make_mom_result` and `regularize_mom_shapes` are in `Verif.Model.MomResult`.
-/

namespace Ngmix

noncomputable section

/-- The literal in `moments.py:68` and `:83`. -/
def fwhmFac : ℝ := 2.3548200450309493

/-- `moments.py:64-68` `sigma_to_fwhm`. -/
def sigmaToFwhm (sigma : ℝ) : ℝ := sigma * fwhmFac

/-- `moments.py:71-76` `T_to_fwhm`. -/
def TToFwhm (T : ℝ) : ℝ :=
  let sigma := Real.sqrt (T / 2)
  sigmaToFwhm sigma

/-- `moments.py:79-83` `fwhm_to_sigma`. -/
def fwhmToSigma (fwhm : ℝ) : ℝ := fwhm / fwhmFac

/-- `moments.py:86-91` `fwhm_to_T`. -/
def fwhmToT (fwhm : ℝ) : ℝ :=
  let sigma := fwhmToSigma fwhm
  2 * sigma ^ 2

/-- `moments.py:94-102` `r50_to_sigma`. -/
def r50ToSigma (r50 : ℝ) : ℝ :=
  let fwhm := 2 * r50
  fwhmToSigma fwhm

/-- `moments.py:105-111` `sigma_to_r50`. -/
def sigmaToR50 (sigma : ℝ) : ℝ :=
  let fwhm := sigmaToFwhm sigma
  fwhm / 2

/-- `moments.py:114-124` `r50_to_T`. -/
def r50ToT (r50 : ℝ) : ℝ :=
  let sigma := r50ToSigma r50
  2 * sigma ^ 2

/-- `moments.py:127-132` `T_to_r50`. -/
def TToR50 (T : ℝ) : ℝ :=
  let sigma := Real.sqrt (T / 2)
  sigmaToR50 sigma

/-- `moments.py:135-163` `moms_to_e1e2`, scalar branch. -/
def momsToE1E2 (M1 M2 T : ℝ) : Except PyErr (ℝ × ℝ) :=
  if T ≤ 0 then .error .gmixRange
  else
    let Tinv := 1 / T
    .ok (M1 * Tinv, M2 * Tinv)

/-- `moments.py:166-183` `get_Tround`. -/
def getTround (T g1 g2 : ℝ) : ℝ :=
  let gsq := g1 ^ 2 + g2 ^ 2
  T * (1 - gsq) / (1 + gsq)

/-- `moments.py:186-203` `get_T`, for shapes not on the unit circle. -/
def getT (Tround g1 g2 : ℝ) : ℝ :=
  let gsq := g1 ^ 2 + g2 ^ 2
  Tround * (1 + gsq) / (1 - gsq)

/-- `moments.py:186-203` `get_T` on Python floats: on the unit circle a ZeroDivisionError (numpy floats would give inf). -/
def getTE (Tround g1 g2 : ℝ) : Except PyErr ℝ :=
  open Classical in if 1 - (g1 ^ 2 + g2 ^ 2) = 0 then .error .zeroDiv else .ok (getT Tround g1 g2)

/-- `moments.py:206-240` `get_sheared_M1M2T`. -/
def getShearedM1M2T (M1 M2 T s1 s2 : ℝ) : Except PyErr (ℝ × ℝ × ℝ) := do
  let e ← momsToE1E2 M1 M2 T
  let g ← e1e2ToG1G2 e.1 e.2
  let gs ← shearReducedE g.1 g.2 s1 s2
  let Tround := getTround T g.1 g.2
  let Ts ← getTE Tround gs.1 gs.2
  let es ← g1g2ToE1E2 gs.1 gs.2
  let M1s := Ts * es.1
  let M2s := Ts * es.2
  .ok (M1s, M2s, Ts)

/-- `moments.py:243-265` `get_sheared_g1g2T`. -/
def getShearedG1G2T (g1 g2 T s1 s2 : ℝ) : Except PyErr (ℝ × ℝ × ℝ) := do
  let gs ← shearReducedE g1 g2 s1 s2
  let Tround := getTround T g1 g2
  let Ts ← getTE Tround gs.1 gs.2
  .ok (gs.1, gs.2, Ts)

/-- `moments.py:294-316` `mom2e`, returning `(e1, e2, T)`.  There is no guard in the
code: with Python floats a zero trace raises `ZeroDivisionError` (numpy scalars would
give NaN with a warning; that variant is not modelled). -/
def mom2e (Irr Irc Icc : ℝ) : Except PyErr (ℝ × ℝ × ℝ) :=
  let T := Irr + Icc
  if T = 0 then .error .zeroDiv
  else
    let e1 := (Icc - Irr) / T
    let e2 := 2 * Irc / T
    .ok (e1, e2, T)

/-- `moments.py:319-340` `mom2g`. -/
def mom2g (Irr Irc Icc : ℝ) : Except PyErr (ℝ × ℝ × ℝ) := do
  let r ← mom2e Irr Irc Icc
  let g ← e1e2ToG1G2 r.1 r.2.1
  .ok (g.1, g.2, r.2.2)

/-- `moments.py:343-367` `e2mom`, returning `(Irr, Irc, Icc)`. -/
def e2mom (e1 e2 T : ℝ) : ℝ × ℝ × ℝ :=
  let Irc := e2 * T / 2
  let Icc := (1 + e1) * T / 2
  let Irr := (1 - e1) * T / 2
  (Irr, Irc, Icc)

/-- `moments.py:370-395` `g2mom`. -/
def g2mom (g1 g2 T : ℝ) : Except PyErr (ℝ × ℝ × ℝ) := do
  let e ← g1g2ToE1E2 g1 g2
  let Irc := e.2 * T / 2
  let Icc := (1 + e.1) * T / 2
  let Irr := (1 - e.1) * T / 2
  .ok (Irr, Irc, Icc)

/-- `moments.py:268-291` `get_sheared_moments`. -/
def getShearedMoments (irr irc icc s1 s2 : ℝ) : Except PyErr (ℝ × ℝ × ℝ) := do
  let r ← mom2g irr irc icc
  let gs ← getShearedG1G2T r.1 r.2.1 r.2.2 s1 s2
  g2mom gs.1 gs.2.1 gs.2.2

end

end Ngmix
