import Verif.Model.ObsList
import Mathlib.Analysis.Real.Sqrt
import Mathlib.Data.List.Sort

/-!
# Model of `/repo/ngmix/simobs.py` and of the list handling in `/repo/ngmix/medsreaders.py`

The random stream, mixture rendering and mixture convolution are arbitrary functions.  Observations are values: every
array of a simulated observation is new (`simobs.py:175-203`).
-/

namespace Ngmix

noncomputable section

/-- What `simulate_obs` reads of an observation, and what it makes.  `weightRaw` is the optional attribute `weight_raw`,
`noiseImage` the attribute added at `simobs.py:203`, `extra` stands for bmask, ormask, noise, mfrac, gmix and meta. -/
structure SimObs (P J E : Type) where
  image : Image
  weight : Image
  weightRaw : Option Image
  jac : J
  psf : Option P
  noiseImage : Option Image
  extra : E

/-- Mixture operations: the mixture of a psf observation, if set, `GMix.convolve` and `GMix.make_image`.  `simobs.py:207-221,
287-296`. -/
structure SimOps (G P J : Type) where
  psfGmix : P → Option G
  convolve : G → G → Except PyErr G
  makeImage : G → ℕ → ℕ → J → Except PyErr (ℕ → ℕ → ℝ)

/-- Options of `simulate_obs`, `simobs.py:12-20`; `rng` draws a standard normal image. -/
structure SimOpts (σ : Type) where
  addNoise : Bool := true
  rng : Option (σ → ℕ → ℕ → σ × (ℕ → ℕ → ℝ)) := none
  addAll : Bool := true
  noiseFactor : Option ℝ := none
  useRawWeight : Bool := true
  convolvePsf : Bool := true

variable {G P J E σ : Type}

/-- `numpy.median` of a non-empty list: the middle of the sorted list, or the mean of the two middle ones. 
`simobs.py:249-285`. -/
def npMedian (l : List ℝ) : ℝ :=
  open Classical in
  let s := l.mergeSort fun a b => decide (a ≤ b)
  if s.length % 2 = 1 then s.getD (s.length / 2) 0
  else (s.getD (s.length / 2 - 1) 0 + s.getD (s.length / 2) 0) / 2

/-- `simobs.py:246` `BIGNOISE`. -/
def bigNoise : ℝ := 1e15

/-- `err[w]`, `simobs.py:263-265`: the errors of the pixels with positive weight. -/
def goodErrs (weight : Image) : List ℝ :=
  (whereWeightPositive weight).map fun p => Real.sqrt (1.0 / weight.get p.1 p.2)

/-- The error map of `get_noise_image`, `simobs.py:262-281`. -/
def noiseErr (weight : Image) (addAll : Bool) (factor : Option ℝ) : ℕ → ℕ → ℝ := open Classical in
  if (whereWeightPositive weight).length > 0 then
    let err := fun r c => if weight.get r c > 0 then Real.sqrt (1.0 / weight.get r c)
      else if addAll = true ∧ (whereWeightPositive weight).length ≠ weight.nrow * weight.ncol then
        npMedian (goodErrs weight) else 0
    match factor with
    | some f => fun r c => err r c * f
    | none => err
  else fun _ _ => bigNoise

/-- `simobs.py:249-284` `get_noise_image`. -/
def getNoiseImage (weight : Image) (rng : Option (σ → ℕ → ℕ → σ × (ℕ → ℕ → ℝ))) (addAll : Bool) (factor : Option ℝ)
    (st : σ) : σ × Except PyErr Image :=
  match rng with
  | none => (st, .error .value)
  | some normal =>
      let z := normal st weight.nrow weight.ncol
      (z.1, .ok ⟨weight.nrow, weight.ncol, fun r c => z.2 r c * noiseErr weight addAll factor r c⟩)

/-- `simobs.py:287-301` `_get_psf_gmix`. -/
def simPsfGmix (ops : SimOps G P J) (o : SimObs P J E) : Except PyErr G :=
  match o.psf with
  | none => .error .runtime
  | some p =>
      match ops.psfGmix p with
      | none => .error .runtime
      | some g => .ok g

/-- `simobs.py:207-220` `_get_simulated_image`. -/
def simulatedImage (ops : SimOps G P J) (gm : Option G) (o : SimObs P J E) (convolvePsf : Bool) :
    Except PyErr (ℕ → ℕ → ℝ) :=
  match gm with
  | none => .ok fun _ _ => 0
  | some g =>
      if convolvePsf then
        (simPsfGmix ops o).bind fun pg => (ops.convolve g pg).bind fun g =>
          ops.makeImage g o.image.nrow o.image.ncol o.jac
      else ops.makeImage g o.image.nrow o.image.ncol o.jac

/-- The weight map noise is made from, `simobs.py:235-238`. -/
def noiseWeight (o : SimObs P J E) (useRaw : Bool) : Image :=
  match o.weightRaw, useRaw with
  | some w, true => w
  | _, _ => o.weight

/-- `simobs.py:223-243` `_get_noisy_image`; adding images of different shape raises `ValueError` (numpy's broadcasting
of axes of length one is not represented). -/
def noisyImage (opts : SimOpts σ) (o : SimObs P J E) (im : ℕ → ℕ → ℝ) (st : σ) :
    σ × Except PyErr ((ℕ → ℕ → ℝ) × Image) :=
  match getNoiseImage (noiseWeight o opts.useRawWeight) opts.rng opts.addAll opts.noiseFactor st with
  | (st, .error e) => (st, .error e)
  | (st, .ok n) =>
      if n.nrow = o.image.nrow ∧ n.ncol = o.image.ncol then (st, .ok (fun r c => im r c + n.get r c, n))
      else (st, .error .value)

/-- The weight map of the simulated observation, `simobs.py:191-197`; `1.0/noise_factor**2` divides Python floats. -/
def simWeight (w : Image) : Option ℝ → Except PyErr Image
  | none => .ok w
  | some f => if f ^ 2 = 0 then .error .zeroDiv else .ok { w with get := fun r c => w.get r c * (1.0 / f ^ 2) }

/-- The end of `_simulate_obs`, `simobs.py:186-204`.  The new Observation drops zero weights (default), so it cannot be
made without a positive weight (`GMixFatalError`, `pixels.py:35-37`). -/
def simFinish (noExtra : E) (o : SimObs P J E) (factor : Option ℝ) (im : ℕ → ℕ → ℝ) (noise : Option Image) :
    Except PyErr (SimObs P J E) :=
  (simWeight o.weight factor).bind fun w =>
    if countPositive w = 0 then .error .gmixFatal
    else .ok ⟨⟨o.image.nrow, o.image.ncol, im⟩, w, none, o.jac, o.psf, noise, noExtra⟩

/-- `simobs.py:165-204` `_simulate_obs`. -/
def simulateOne (ops : SimOps G P J) (opts : SimOpts σ) (noExtra : E) (gm : Option G) (o : SimObs P J E) (st : σ) :
    σ × Except PyErr (SimObs P J E) :=
  match simulatedImage ops gm o opts.convolvePsf with
  | .error e => (st, .error e)
  | .ok im =>
      if opts.addNoise then
        match noisyImage opts o im st with
        | (st, .error e) => (st, .error e)
        | (st, .ok (im, n)) => (st, simFinish noExtra o opts.noiseFactor im (some n))
      else (st, simFinish noExtra o opts.noiseFactor im none)

/-- A mixture argument for one observation or ObsList: `None`, a mixture, or something else.  `simobs.py:140-205`. -/
inductive GmArg (G : Type)
  | none
  | gmix (g : G)
  | wrongType

/-- `simulate_obs` on an Observation, `simobs.py:60-83`. -/
def simulateChecked (ops : SimOps G P J) (opts : SimOpts σ) (noExtra : E) (gm : GmArg G) (o : SimObs P J E) (st : σ) :
    σ × Except PyErr (SimObs P J E) :=
  match gm with
  | .wrongType => (st, .error .value)
  | .none => simulateOne ops opts noExtra none o st
  | .gmix g => simulateOne ops opts noExtra (some g) o st

/-- The loop of `simobs.py:140-162` `_simulate_obslist`. -/
def simulateList (ops : SimOps G P J) (opts : SimOpts σ) (noExtra : E) (gm : GmArg G) :
    List (SimObs P J E) → σ → σ × Except PyErr (List (SimObs P J E))
  | [], st => (st, .ok [])
  | o :: os, st =>
      match simulateChecked ops opts noExtra gm o st with
      | (st, .error e) => (st, .error e)
      | (st, .ok o') =>
          match simulateList ops opts noExtra gm os st with
          | (st, .error e) => (st, .error e)
          | (st, .ok os') => (st, .ok (o' :: os'))

/-- The loop over bands, `simobs.py:117-135`. -/
def simulateBands (ops : SimOps G P J) (opts : SimOpts σ) (noExtra : E) :
    List (GmArg G × List (SimObs P J E)) → σ → σ × Except PyErr (List (List (SimObs P J E)))
  | [], st => (st, .ok [])
  | (g, l) :: ls, st =>
      match simulateList ops opts noExtra g l st with
      | (st, .error e) => (st, .error e)
      | (st, .ok l') =>
          match simulateBands ops opts noExtra ls st with
          | (st, .error e) => (st, .error e)
          | (st, .ok ls') => (st, .ok (l' :: ls'))

/-- The `gmix` argument of `simulate_obs`.  `simobs.py:12-89`. -/
inductive SimGm (G : Type)
  | none
  | gmix (g : G)
  | list (l : List (GmArg G))
  | other

/-- As the mixture of one observation or ObsList, `simobs.py:60-61`. -/
def SimGm.single : SimGm G → GmArg G
  | .none => .none
  | .gmix g => .gmix g
  | _ => .wrongType

/-- The checks of `_simulate_mbobs`, `simobs.py:100-115`: the mixture of each of `n` bands. -/
def SimGm.bands (n : ℕ) : SimGm G → Except PyErr (List (GmArg G))
  | .none => .ok (List.replicate n .none)
  | .list [] => .error .index
  | .list (.gmix g :: gs) => if (GmArg.gmix g :: gs).length = n then .ok (.gmix g :: gs) else .error .value
  | .list (_ :: _) => .error .value
  | _ => .error .value

/-- `simobs.py:12-88` `simulate_obs`.  New lists have empty metadata. -/
def simulateObs (ops : SimOps G P J) (opts : SimOpts σ) (noExtra : E) {MD : Type} (empty : MD) (gm : SimGm G)
    (arg : ObsIn (SimObs P J E) MD) (st : σ) : σ × Except PyErr (ObsIn (SimObs P J E) MD) :=
  match arg with
  | .mb _ l =>
      match gm.bands l.length with
      | .error e => (st, .error e)
      | .ok gs =>
          let x := simulateBands ops opts noExtra (gs.zip (l.map Prod.snd)) st
          (x.1, x.2.map fun ls => .mb empty (ls.map fun l => (empty, l)))
  | .list _ l =>
      match gm.single with
      | .wrongType => (st, .error .value)
      | g => let x := simulateList ops opts noExtra g l st; (x.1, x.2.map fun l => .list empty l)
  | .obs o => let x := simulateChecked ops opts noExtra gm.single o st; (x.1, x.2.map .obs)
  | .other => (st, .error .value)

/-! ### MEDS readers -/

/-- What an observation's metadata may contain that the reader copies: `flux` and `T`.  `medsreaders.py:117-154, 180-285`. -/
structure MedsMeta where
  flux : Option ℝ
  T : Option ℝ

/-- The loop of `medsreaders.py:141-146`: cutouts whose observation cannot be made for lack of weight are skipped. -/
def medsLoop {O : Type} (getObs : ℕ → Except PyErr O) : List ℕ → Except PyErr (List O)
  | [] => .ok []
  | i :: is =>
      match getObs i with
      | .error .gmixFatal => medsLoop getObs is
      | .error e => .error e
      | .ok o => (medsLoop getObs is).map fun os => o :: os

/-- `medsreaders.py:117-154` `get_obslist`: the observations and the metadata of the list. -/
def getObslist {O : Type} (metaOf : O → MedsMeta) (getObs : ℕ → Except PyErr O) (ncutout : ℕ) :
    Except PyErr (List O × MedsMeta) :=
  (medsLoop getObs (List.range ncutout)).map fun os =>
    match os with
    | [] => ([], ⟨none, none⟩)
    | o :: rest => (o :: rest, ⟨(metaOf o).flux, (metaOf o).T⟩)

/-- `medsreaders.py:83-113` `get_mbobs`: one reader per band. -/
def getMbobs {O : Type} : List (Except PyErr (List O × MedsMeta)) → Except PyErr (List (List O × MedsMeta))
  | [] => .ok []
  | m :: ms => m.bind fun l => (getMbobs ms).map fun ls => l :: ls

/-- `medsreaders.py:49-81` `get_mbobs_list`; `mbobs i` is `get_mbobs(i)`. -/
def getMbobsList {O : Type} (mbobs : ℕ → Except PyErr O) (size : ℕ) (indices : Option (List ℕ)) :
    Except PyErr (List O) :=
  (indices.getD (List.range size)).foldr (fun i acc => (mbobs i).bind fun o => acc.map fun os => o :: os) (.ok [])

/-- The weight map a cutout gets, `medsreaders.py:227-238`: which MEDS method is used. -/
inductive MedsWeight
  | uberseg | cweight | weight | cseg | csegCanonical
  deriving DecidableEq

/-- `medsreaders.py:180-285`. -/
def medsWeight (t : String) : Except PyErr MedsWeight :=
  if t = "uberseg" then .ok .uberseg
  else if t = "cweight" then .ok .cweight
  else if t = "weight" then .ok .weight
  else if t = "cseg" then .ok .cseg
  else if t = "cseg-canonical" then .ok .csegCanonical
  else .error .value

end

end Ngmix
