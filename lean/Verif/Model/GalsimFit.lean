import Verif.Model.KObs
import Verif.Model.Fitter

/-!
# Model of `/repo/ngmix/fitting/galsim_results.py` and `galsim_fitters.py`: fits of galsim models in k space

GalSim is a parameter.  The images the fit works on (`kmodel`, `ierr`, `scratch`) live in the metadata dictionaries
of the k space observations: the memory maps the address of a dictionary to them.  `scratch` is written before
every use and left out.
-/

namespace Ngmix

noncomputable section

/-- `GalsimFitModel` for a named model, `GalsimSpergelFitModel`, `GalsimMoffatFitModel`.
`galsim_results.py:13, 364, 427`. -/
inductive GSKind
  | simple (name : String)
  | spergel
  | moffat

/-- GalSim: constructors of the round profiles (`extra` is `nu` or `beta`), `shear`, `shift`, and the image drawn on
the pixels of a k space image (`drawK`, what is left in the image when that raises: `drawLeft`).  GalSim's own
exceptions are `RuntimeError`s.  `galsim_results.py:106-164, 341-346`. -/
structure GSLib where
  Obj : Type
  round : GSKind → (extra : Option ℝ) → (r50 flux : ℝ) → Except PyErr Obj
  shear : Obj → ℝ → ℝ → Except PyErr Obj
  shift : Obj → ℝ → ℝ → Except PyErr Obj
  drawK : Obj → (g : Grid) → Except PyErr (Fin g.size → ℂ)
  drawLeft : Obj → KImg → List ℂ

/-- The images of the fit in a metadata dictionary: `kmodel` and `ierr`.  `galsim_results.py:236-264`. -/
structure KCell where
  kmodel : KImg
  ierr : List ℝ

/-- The dictionaries.  `galsim_results.py:236-264`. -/
abbrev KMem := ℕ → KCell

/-- `meta["kmodel"].array[:, :] = d`.  `galsim_results.py:116-121`. -/
def KMem.setModel (mem : KMem) (a : ℕ) (d : List ℂ) : KMem :=
  fun b => if b = a then { mem a with kmodel := { (mem a).kmodel with data := d } } else mem b

/-- `except RuntimeError as err: raise GMixRangeError`.  `galsim_results.py:122-123, 159-162`. -/
def rtToRange {α : Type} : Except PyErr α → Except PyErr α
  | .error .runtime => .error .gmixRange
  | r => r

/-- `except ValueError as err: raise GMixRangeError`.  `galsim_results.py:137-140`. -/
def valToRange {α : Type} : Except PyErr α → Except PyErr α
  | .error .value => .error .gmixRange
  | r => r

/-- Number of the parameters before the fluxes: `get_galsim_npars` is this plus the number of bands.
`galsim_results.py:642-662`. -/
def GSKind.lead : GSKind → ℕ
  | .simple _ => 5
  | .spergel => 6
  | .moffat => 6

/-- `get_band_pars`, `galsim_results.py:178-189`, `:406-417`, `:469-480`.  The buffer it fills has `lead + 1` entries,
all of which are written: its old contents do not matter. -/
def GSKind.bandPars (k : GSKind) (pars : List ℝ) (band : ℕ) : Except PyErr (List ℝ) := takeBand k.lead pars band

/-- `make_round_model`, `galsim_results.py:145-164`, `:388-404`, `:451-467`. -/
def gsRound (G : GSLib) (k : GSKind) (bp : List ℝ) : Except PyErr G.Obj :=
  match k, bp with
  | .simple _, [_, _, _, _, r50, flux] =>
    open Classical in if r50 < 0.0001 then .error .gmixRange else rtToRange (G.round k none r50 flux)
  | .spergel, [_, _, _, _, r50, nu, flux] => rtToRange (G.round k (some nu) r50 flux)
  | .moffat, [_, _, _, _, r50, beta, flux] => rtToRange (G.round k (some beta) r50 flux)
  | _, _ => .error .index

/-- `make_model`, `galsim_results.py:125-143`. -/
def gsModel (G : GSLib) (k : GSKind) (bp : List ℝ) : Except PyErr G.Obj :=
  (gsRound G k bp).bind fun m =>
    match bp with
    | c1 :: c2 :: g1 :: g2 :: _ => (valToRange (G.shear m g1 g2)).bind fun m => G.shift m c1 c2
    | _ => .error .index

/-- `kmodel *= kobs.psf.kimage`, a GalSim error for images of different shapes.  `galsim_results.py:120-121`. -/
def kMul (g : Grid) (d : List ℂ) (p : KImg) : Except PyErr (List ℂ) :=
  if (g.nrow, g.ncol) ≠ (p.grid.nrow, p.grid.ncol) then .error .runtime
  else .ok (List.zipWith (fun x y => x * y) d p.data)

/-- Drawing a galaxy in the `kmodel` image and multiplying by the psf, `galsim_results.py:114-121`, `:341-346`. -/
def drawOne (G : GSLib) (gal : G.Obj) (k : KObs) (mem : KMem) : KMem × Except PyErr Unit :=
  let c := mem k.meta_
  match G.drawK gal c.kmodel.grid with
  | .error e => (mem.setModel k.meta_ (G.drawLeft gal c.kmodel), .error e)
  | .ok d =>
    let mem1 := mem.setModel k.meta_ (List.ofFn d)
    match k.psf with
    | none => (mem1, .ok ())
    | some p =>
      match kMul c.kmodel.grid (List.ofFn d) p.kimage with
      | .error e => (mem1, .error e)
      | .ok d' => (mem.setModel k.meta_ d', .ok ())

/-- The loop over the observations of a band in `_fill_models`.  `galsim_results.py:110-121`. -/
def fillKBand (G : GSLib) (kind : GSKind) (bp : List ℝ) : List KObs → KMem → KMem × Except PyErr Unit
  | [], mem => (mem, .ok ())
  | k :: ks, mem =>
    match gsModel G kind bp with
    | .error e => (mem, .error e)
    | .ok gal =>
      match drawOne G gal k mem with
      | (mem1, .error e) => (mem1, .error e)
      | (mem1, .ok _) => fillKBand G kind bp ks mem1

/-- The loop over the bands, from band `b` on.  `galsim_results.py:105-121`. -/
def fillKAll (G : GSLib) (kind : GSKind) (pars : List ℝ) : ℕ → List (List KObs) → KMem → KMem × Except PyErr Unit
  | _, [], mem => (mem, .ok ())
  | b, ks :: rest, mem =>
    match kind.bandPars pars b with
    | .error e => (mem, .error e)
    | .ok bp =>
      match fillKBand G kind bp ks mem with
      | (mem1, .error e) => (mem1, .error e)
      | (mem1, .ok _) => fillKAll G kind pars (b + 1) rest mem1

/-- `_fill_models`, `galsim_results.py:99-123`. -/
def fillModels (G : GSLib) (kind : GSKind) (pars : List ℝ) (kobs : List (List KObs)) (mem : KMem) :
    KMem × Except PyErr Unit :=
  match fillKAll G kind pars 0 kobs mem with
  | (mem1, r) => (mem1, rtToRange r)

/-- `fdiff[start:start + imsize] = values`: numpy clips the slice, and then wants as many values, or one.
`galsim_results.py:86, 90`. -/
def sliceWrite (fdiff : List Fl) (start : ℕ) (v : List Fl) : Except PyErr (List Fl) :=
  if start + v.length ≤ fdiff.length then .ok (fdiff.take start ++ v ++ fdiff.drop (start + v.length))
  else if v.length ≤ 1 then .ok fdiff
  else .error .value

/-- The body of the loop over observations in `calc_fdiff`, `galsim_results.py:67-92`. -/
def residOne (mem : KMem) (k : KObs) (fdiff : List Fl) (start : ℕ) : Except PyErr (List Fl × ℕ) :=
  let c := mem k.meta_
  if (c.kmodel.grid.nrow, c.kmodel.grid.ncol) ≠ (k.kimage.grid.nrow, k.kimage.grid.ncol) then .error .runtime
  else
    let scratch := List.zipWith (fun x y => x - y) c.kmodel.data k.kimage.data
    let re := List.zipWith (fun (z : ℂ) e => Fl.fin (z.re * e)) scratch c.ierr
    let im := List.zipWith (fun (z : ℂ) e => Fl.fin (z.im * e)) scratch c.ierr
    (sliceWrite fdiff start re).bind fun fdiff =>
      (sliceWrite fdiff (start + scratch.length) im).map fun fdiff => (fdiff, start + scratch.length + scratch.length)

/-- The loops over bands and observations in `calc_fdiff`.  `galsim_results.py:64-92`. -/
def residAll (mem : KMem) : List KObs → List Fl → ℕ → Except PyErr (List Fl × ℕ)
  | [], fdiff, start => .ok (fdiff, start)
  | k :: ks, fdiff, start => (residOne mem k fdiff start).bind fun r => residAll mem ks r.1 r.2

/-- The object.  `galsim_results.py:31-45`. -/
structure GSFit where
  kind : GSKind
  prior : Option JointPrior
  kobs : List (List KObs)

/-- `_set_n_prior_pars`, `galsim_results.py:224-229`, `:419-424`, `:485-490`. -/
def GSFit.nPrior (f : GSFit) : ℕ :=
  match f.prior with
  | none => 0
  | some _ =>
    match f.kind with
    | .simple _ => 1 + 1 + 1 + 1 + f.kobs.length
    | .spergel => 1 + 1 + 1 + 1 + 1 + f.kobs.length
    | .moffat => 1 + 1 + 1 + 1 + 1 + f.kobs.length

/-- `_set_totpix`, `galsim_results.py:191-201`. -/
def GSFit.totpix (f : GSFit) : ℕ := (f.kobs.flatten.map fun k => k.kimage.grid.size).sum

/-- `_set_fdiff_size`, `galsim_results.py:231-234`. -/
def GSFit.fdiffSize (f : GSFit) : ℕ := f.nPrior + 2 * f.totpix

/-- `_set_npars`, `galsim_results.py:296-300`, with `get_galsim_npars`, `:642-662`. -/
def GSFit.npars (f : GSFit) : ℕ := f.kind.lead + f.kobs.length

/-- The body of the `try` of `calc_fdiff`.  `galsim_results.py:58-92`. -/
def gsFdiffTry (G : GSLib) (f : GSFit) (mem : KMem) (pars : List ℝ) : KMem × Except PyErr (List Fl) :=
  match fillModels G f.kind pars f.kobs mem with
  | (mem1, .error e) => (mem1, .error e)
  | (mem1, .ok _) =>
    (mem1, (fillPriors f.prior pars (List.replicate f.fdiffSize (.fin 0))).bind fun p =>
      (residAll mem1 f.kobs.flatten p.1 p.2).map fun r => r.1)

/-- `calc_fdiff`, `galsim_results.py:47-97`: the memory left behind and the residuals. -/
def gsFdiff (G : GSLib) (f : GSFit) (mem : KMem) (pars : List ℝ) : KMem × Except PyErr (List Fl) :=
  match gsFdiffTry G f mem pars with
  | (mem1, .error .gmixRange) => (mem1, .ok (List.replicate f.fdiffSize .ninf))
  | r => r

/-- `ierr` of `_init_model_images`, `galsim_results.py:255-262`. -/
def kIerr (w : WImg) : List ℝ := w.data.map fun x => open Classical in if 0 < x then Real.sqrt x else 0

/-- `_init_model_images` and `_create_models_in_kobs`, `galsim_results.py:236-264`. -/
def initImages : List KObs → KMem → KMem
  | [], mem => mem
  | k :: ks, mem => initImages ks fun b => if b = k.meta_ then ⟨k.kimage, kIerr k.weight⟩ else mem b

/-- The loop of `_check_guess`, from band `b` on.  `galsim_results.py:279-283`. -/
def checkGuess (G : GSLib) (kind : GSKind) (guess : List ℝ) (b : ℕ) : ℕ → Except PyErr Unit
  | 0 => .ok ()
  | n + 1 => (kind.bandPars guess b).bind fun bp => (gsModel G kind bp).bind fun _ =>
      checkGuess G kind guess (b + 1) n

/-- The constructor, `galsim_results.py:31-45`, with `_set_model_class` (`galsim_results.py:166-176`, `galsim_results.py:383-386`,
`galsim_results.py:446-449`), `_set_prior` (`galsim_results.py:221-222`, `galsim_results.py:482-483`), `_get_guess`
(`galsim_results.py:287-294`) and `_set_band_pars` (`galsim_results.py:302-309`), on k space observations (`_set_kobs`,
`galsim_results.py:203-219`: `make_kobs` of the observations, or given as such): the memory left behind and the outcome. -/
def newGSFit (G : GSLib) (kind : GSKind) (prior : Option JointPrior) (kobs : List (List KObs)) (guess : List ℝ)
    (mem : KMem) : KMem × Except PyErr GSFit :=
  let known : Bool := match kind with
    | .simple name => name ∈ ["exp", "dev", "gauss"]
    | _ => true
  if !known then (mem, .error .notImpl)
  else
    let f : GSFit := ⟨kind, prior, kobs⟩
    let mem1 := initImages kobs.flatten mem
    if guess.length ≠ f.npars then (mem1, .error .value)
    else (mem1, (checkGuess G kind guess 0 kobs.length).map fun _ => f)

/-- `round_pars[2:2+2] = 0.0`.  `galsim_results.py:337-338`. -/
def roundPars : List ℝ → List ℝ
  | c1 :: c2 :: _ :: _ :: l => c1 :: c2 :: 0.0 :: 0.0 :: l
  | l => l

/-- The body of the loop of `calc_s2n_r`, `galsim_results.py:333-354`: the image is squared and multiplied by the
weights in place, real and imaginary parts apart.  Shapes that differ are an error (numpy's broadcasting is not
modelled). -/
def s2nOne (G : GSLib) (kind : GSKind) (bp : List ℝ) (k : KObs) (mem : KMem) (acc : ℝ) : KMem × Except PyErr ℝ :=
  match gsModel G kind (roundPars bp) with
  | .error e => (mem, .error e)
  | .ok gal =>
    match drawOne G gal k mem with
    | (mem1, .error e) => (mem1, .error e)
    | (mem1, .ok _) =>
      let d := (mem1 k.meta_).kmodel
      if (d.grid.nrow, d.grid.ncol) ≠ (k.weight.nrow, k.weight.ncol) then (mem1, .error .value)
      else
        let d' := List.zipWith (fun (z : ℂ) w => (⟨z.re * z.re * w, z.im * z.im * w⟩ : ℂ)) d.data k.weight.data
        (mem1.setModel k.meta_ d', .ok (acc + (d'.map Complex.re).sum + (d'.map Complex.im).sum))

/-- The loop over the observations of a band.  `galsim_results.py:333-354`. -/
def s2nKBand (G : GSLib) (kind : GSKind) (bp : List ℝ) : List KObs → KMem → ℝ → KMem × Except PyErr ℝ
  | [], mem, acc => (mem, .ok acc)
  | k :: ks, mem, acc =>
    match s2nOne G kind bp k mem acc with
    | (mem1, .error e) => (mem1, .error e)
    | (mem1, .ok acc') => s2nKBand G kind bp ks mem1 acc'

/-- The loop over the bands.  `galsim_results.py:329-354`. -/
def s2nKAll (G : GSLib) (kind : GSKind) (pars : List ℝ) : ℕ → List (List KObs) → KMem → ℝ → KMem × Except PyErr ℝ
  | _, [], mem, acc => (mem, .ok acc)
  | b, ks :: rest, mem, acc =>
    match kind.bandPars pars b with
    | .error e => (mem, .error e)
    | .ok bp =>
      match s2nKBand G kind bp ks mem acc with
      | (mem1, .error e) => (mem1, .error e)
      | (mem1, .ok acc') => s2nKAll G kind pars (b + 1) rest mem1 acc'

/-- `calc_s2n_r`, `galsim_results.py:322-361`. -/
def calcS2nR (G : GSLib) (f : GSFit) (mem : KMem) (pars : List ℝ) : KMem × Except PyErr ℝ :=
  match s2nKAll G f.kind pars 0 f.kobs mem 0.0 with
  | (mem1, r) => (mem1, r.map fun s => open Classical in if 0.0 < s then Real.sqrt s else 0.0)

/-- The entries added when the flags are zero.  `galsim_results.py:311-320`. -/
structure GSStats where
  s2nR : ℝ
  g : List ℝ
  gCov : List (List Fl)
  gErr : List Fl
  flux : FluxRes

/-- The result.  `galsim_results.py:311-320`. -/
structure GSResult (n : ℕ) where
  lm : LmResult n
  stats : Option GSStats

/-- The name of the model, `self['model']`.  `galsim_results.py:32-33, 381, 444`. -/
def GSKind.name : GSKind → String
  | .simple s => s
  | .spergel => "spergel"
  | .moffat => "moffat"

/-- `set_fit_result`, `galsim_results.py:311-320`, with `_set_g` and `_set_flux` of `results.py:398-408, 843-872`.  The
outcome at parameters with NaN entries (`nanStats`) is arbitrary. -/
def gsSetResult {n : ℕ} (G : GSLib) (f : GSFit) (nanStats : Except PyErr GSStats) (mem : KMem) (r : LmResult n) :
    KMem × Except PyErr (GSResult n) :=
  if r.flags = 0 then
    match allReal r.pars with
    | none => (mem, nanStats.map fun s => ⟨r, some s⟩)
    | some p =>
      match calcS2nR G f mem p with
      | (mem1, .error e) => (mem1, .error e)
      | (mem1, .ok s2n) =>
        (mem1, match r.parsErr with
          | none => .error .key
          | some err => (fitSetFlux (.std f.kind.name) f.kobs.length p r.parsCov).map fun flux =>
              ⟨r, some ⟨s2n, (p.drop 2).take 2, covSlice r.parsCov 2 4, vecSlice err 2 4, flux⟩⟩)
  else (mem, .ok ⟨r, none⟩)

/-- `calc_fdiff` as called by the minimiser.  `galsim_fitters.py:51`.  At parameters with NaN entries the outcome is
arbitrary and the images are taken as left alone: every later evaluation fills them anew. -/
def gsEvalS (G : GSLib) (f : GSFit) (nanEval : List (Option ℝ) → Except LmErr (List Fl)) (mem : KMem)
    (x : List (Option ℝ)) : KMem × Except LmErr (List Fl) :=
  match allReal x with
  | none => (mem, nanEval x)
  | some p =>
    match gsFdiff G f mem p with
    | (mem1, r) => (mem1, toLm r)

/-- `GalsimFitter.go`, `galsim_fitters.py:43-66`, and the two other fitters (`:85-88`, `:109-112`), constructed by
`galsim_fitters.py:34-41`, `galsim_fitters.py:82-83`, `galsim_fitters.py:106-107`. -/
def gsGo (G : GSLib) (kind : GSKind) (prior : Option JointPrior)
    (lm : (guess : List ℝ) → Option (List BEntry) → Proc (LmTup guess.length))
    (eig : (n : ℕ) → (Fin n → Fin n → Fl) → Option (List Fl))
    (nanEval : List (Option ℝ) → Except LmErr (List Fl)) (nanStats : Except PyErr GSStats)
    (kobs : List (List KObs)) (guess : List ℝ) (mem : KMem) :
    KMem × Except PyErr (GSFit × GSResult guess.length) :=
  match newGSFit G kind prior kobs guess mem with
  | (mem0, .error e) => (mem0, .error e)
  | (mem0, .ok f) =>
    match Proc.runS (gsEvalS G f nanEval) mem0 (lm guess (fitBounds prior)) with
    | (mem1, t) =>
      let mem2 := match finalEval t with
        | none => mem1
        | some y => (gsEvalS G f nanEval mem1 y).1
      match runLeastsq guess.length (fun y => (gsEvalS G f nanEval mem1 y).2) (eig guess.length) f.nPrior true t with
      | .error e => (mem2, .error e)
      | .ok r =>
        match gsSetResult G f nanStats mem2 r with
        | (mem3, res) => (mem3, res.map fun res => (f, res))

end

end Ngmix
