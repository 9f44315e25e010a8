import Verif.Spec.EMUnit
import Verif.Model.Admom

/-!
# Specification: the same adaptive moments with other sky axes and another unit of brightness
-/

namespace Ngmix.Spec

open Ngmix

noncomputable section

/-- The sign of `e1` in axes that are exchanged or not: minus if rows and columns are exchanged. -/
def SkyMap.sign1 (M : SkyMap) : ℝ := M.a ^ 2 - M.b ^ 2

/-- The sign of `e2`: minus if one of the directions is reversed and the other is not. -/
def SkyMap.sign2 (M : SkyMap) : ℝ := M.a * M.d + M.b * M.c

/-- The pixel in the new axes, with value and error in the new unit. -/
def AxesPixel (k : ℝ) (M : SkyMap) (x x' : Pixel) : Prop :=
  (x'.v, x'.u) = M.point (x.v, x.u) ∧ x'.area = x.area ∧ x'.val = k * x.val ∧ x'.ierr = x.ierr / k

/-- The seven sums in the new axes: the two of the position, of the shape and of size, flux and fourth moment. -/
def axesSums (M : SkyMap) (x : Fin 7 → ℝ) : Fin 7 → ℝ :=
  ![M.a * x 0 + M.b * x 1 + M.s * x 5, M.c * x 0 + M.d * x 1 + M.t * x 5, M.sign1 * x 2, M.sign2 * x 3, x 4, x 5, x 6]

/-- Six parameters: position, shape moments, size and flux. -/
def AxesSix (flux : Fl → Fl) (M : SkyMap) (l l' : List Fl) : Prop :=
  ∃ (r c m1 m2 T : ℝ) (f : Fl), l = [.fin r, .fin c, .fin m1, .fin m2, .fin T, f] ∧
    l' = [.fin (M.point (r, c)).1, .fin (M.point (r, c)).2, .fin (M.sign1 * m1), .fin (M.sign2 * m2), .fin T, flux f]

/-- The parameters of a failed measurement: not measured, or measured except for the flux. -/
def AxesPars (M : SkyMap) (l l' : List Fl) : Prop :=
  (l' = l ∧ (l = List.replicate 6 .nan ∨ l = List.replicate 6 (.fin 0))) ∨ AxesSix (fun f => f) M l l'

/-- The results of the two measurements. -/
structure SameMoments (k : ℝ) (M : SkyMap) (o o' : AMOut) : Prop where
  flags : o'.flags = o.flags
  numiter : o'.numiter = o.numiter
  npix : o'.npix = o.npix
  fluxFlags : o'.fluxFlags = o.fluxFlags
  TFlags : o'.TFlags = o.TFlags
  rho4Flags : o'.rho4Flags = o.rho4Flags
  wsum : o'.wsum = o.wsum
  sums : ∀ i, o'.sums i = k * axesSums M o.sums i
  sumsCov : ∀ i j, o'.sumsCov i j = k ^ 2 * axesSums M (fun p => axesSums M (o.sumsCov p) j) i
  pars : AxesPars M o.pars o'.pars ∨ AxesSix (fun f => .fin k * f) M o.pars o'.pars
  pars0 : o.flags = 0 → AxesSix (fun f => .fin k * f) M o.pars o'.pars
  flux : o'.flux = .fin k * o.flux
  fluxMean : o'.fluxMean = .fin k * o.fluxMean
  fluxErr : o'.fluxErr = .fin k * o.fluxErr
  s2n : o'.s2n = o.s2n
  T : o'.T = o.T
  Terr : o'.Terr = o.Terr
  rho4 : o'.rho4 = o.rho4
  rho4Err : o'.rho4Err = o.rho4Err
  e1 : o'.e1 = .fin M.sign1 * o.e1
  e2 : o'.e2 = .fin M.sign2 * o.e2
  e1err : o'.e1err = o.e1err
  e2err : o'.e2err = o.e2err

end

end Ngmix.Spec
