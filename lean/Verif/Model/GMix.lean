import Verif.Model.Gauss

/-!
# Model of `/repo/ngmix/gmix/gmix.py`: the mixture classes

numpy's sums are sums of lists.  When the code would put NaN or infinity in the mixture (division by a
zero flux) the model's result is `none`.
-/

namespace Ngmix

noncomputable section

/-! ### Functions of the data array -/

/-- `gmix.py:266-271` `get_flux`; the data array is that of `get_data`, `:120-124`. -/
def psum (gm : List Gauss) : ℝ := (gm.map Gauss.p).sum

/-- `gmix.py:152-165` `get_cen`. -/
def getCen (gm : List Gauss) : Option (ℝ × ℝ) :=
  open Classical in
  if psum gm = 0 then none
  else some ((gm.map fun g => g.row * g.p).sum / psum gm, (gm.map fun g => g.col * g.p).sum / psum gm)

/-- `gmix.py:167-179` `GMix.set_cen`. -/
def setCen (gm : List Gauss) (row col : ℝ) : Option (List Gauss) :=
  (getCen gm).map fun c =>
    gm.map fun g => { g with row := g.row + (row - c.1), col := g.col + (col - c.2) }

/-- The flux-weighted second moments about the centre, `gmix.py:217-230`: `(irr, irc, icc)`. -/
def getMoms (gm : List Gauss) : Option (ℝ × ℝ × ℝ) :=
  (getCen gm).map fun c =>
    let ipsum := 1 / psum gm
    ((gm.map fun g => (g.irr + (g.row - c.1) ^ 2) * g.p).sum * ipsum,
     (gm.map fun g => (g.irc + (g.row - c.1) * (g.col - c.2)) * g.p).sum * ipsum,
     (gm.map fun g => (g.icc + (g.col - c.2) ^ 2) * g.p).sum * ipsum)

/-- `gmix.py:181-201` `get_T`. -/
def gmGetT (gm : List Gauss) : Option ℝ := (getMoms gm).map fun m => m.1 + m.2.2

/-- `gmix.py:210-233` `get_e1e2T`. -/
def gmGetE1e2T (gm : List Gauss) : Option (ℝ × ℝ × ℝ) :=
  open Classical in
  (getMoms gm).bind fun m =>
    let T := m.1 + m.2.2
    if T = 0 then none else some ((m.2.2 - m.1) / T, 2 * m.2.1 / T, T)

/-- `gmix.py:235-241` `get_g1g2T`. -/
def gmGetG1g2T (gm : List Gauss) : Option (Except PyErr (ℝ × ℝ × ℝ)) :=
  (gmGetE1e2T gm).map fun e => (e1e2ToG1G2 e.1 e.2.1).map fun g => (g.1, g.2, e.2.2)

/-- `gmix.py:276-287` `set_flux`. -/
def setFlux (gm : List Gauss) (flux : ℝ) : Option (List Gauss) :=
  open Classical in
  if psum gm = 0 then none
  else
    let rat := flux / psum gm
    some (gm.map fun g => { g with p := g.p * rat, normSet := false })

/-- `gmix.py:126-150` `get_full_pars`. -/
def getFullPars (gm : List Gauss) : List ℝ :=
  gm.flatMap fun g => [g.p, g.row, g.col, g.irr, g.irc, g.icc]

/-- Comparison of one field of two mixtures by numpy `==` and `np.all`: equal lengths compare
elementwise, length one broadcasts, other lengths raise.  `gmix.py:430-443`. -/
def fieldEq (a b : List ℝ) : Except PyErr Bool :=
  open Classical in
  if a.length = b.length then .ok (decide (a = b))
  else
    match a, b with
    | [x], b => .ok (decide (∀ y ∈ b, x = y))
    | a, [y] => .ok (decide (∀ x ∈ a, x = y))
    | _, _ => .error .value

/-- `gmix.py:430-443` `__eq__`, both arguments mixtures. -/
def gmEq (a b : List Gauss) : Except PyErr Bool :=
  [Gauss.p, Gauss.row, Gauss.col, Gauss.irr, Gauss.irc, Gauss.icc, Gauss.det].foldl
    (fun acc f => match acc with
      | .ok true => fieldEq (a.map f) (b.map f)
      | r => r) (.ok true)

/-- The loop body of `gmix.py:469-481` in `get_sheared`. -/
def shearGauss (s1 s2 : ℝ) (g : Gauss) : Except PyErr Gauss :=
  (getShearedMoments g.irr g.irc g.icc s1 s2).map fun m =>
    { g with irr := m.1, irc := m.2.1, icc := m.2.2, det := m.1 * m.2.2 - m.2.1 * m.2.1,
             normSet := false }

/-- `gmix.py:445-483` `get_sheared` (lines 464-483) applied to the data of the copy. -/
def shearData (s1 s2 : ℝ) : List Gauss → Except PyErr (List Gauss)
  | [] => .ok []
  | g :: gs => (shearGauss s1 s2 g).bind fun g' => (shearData s1 s2 gs).map fun gs' => g' :: gs'

/-- The loop of `gmix.py:571-582` in `make_round`; the determinant is not updated. -/
def roundData (factor : ℝ) (gm : List Gauss) : List Gauss :=
  gm.map fun g =>
    let Ti := g.irr + g.icc
    { g with irc := 0, irr := 0.5 * Ti * factor, icc := 0.5 * Ti * factor, normSet := false }

/-- Larger eigenvalue of the symmetric matrix `[[a,b],[b,c]]` (`np.linalg.eigvals(mat).max()`, `gmix.py:564-566`,
`metacal.py:806-808`): the larger root of its characteristic polynomial (LAPACK computes the roots; rounding is not modelled). -/
def maxEig (a b c : ℝ) : ℝ := (a + c) / 2 + Real.sqrt (((a - c) / 2) ^ 2 + b ^ 2)

/-- The size factor of `make_round`, `gmix.py:546-569`. -/
def roundFactorOf (gm : List Gauss) (preserveSize : Bool) : Option (Except PyErr ℝ) :=
  if preserveSize then
    (gmGetE1e2T gm).map fun e =>
      let m := e2mom e.1 e.2.1 e.2.2
      .ok (maxEig m.1 m.2.1 m.2.2 / (e.2.2 / 2))
  else
    (gmGetG1g2T gm).map fun r => r.map fun g => getRoundFactor g.1 g.2.1

/-- `gmix.py:532-584` `make_round` applied to the data of the copy. -/
def makeRound (gm : List Gauss) (preserveSize : Bool) : Option (Except PyErr (List Gauss)) :=
  (roundFactorOf gm preserveSize).map fun r => r.map fun f => roundData f gm

/-! ### Model tables -/

/-- A model argument: a name or a number.  `gmix.py:1212-1249`. -/
inductive ModelArg
  | str (s : String)
  | num (n : ℕ)
  deriving DecidableEq

/-- `gmix.py:1079-1100` `_gmix_model_dict` (with the constants of `:1067-1077`). -/
def modelDict : List (ModelArg × ℕ) :=
  [(.str "full", 0), (.num 0, 0), (.str "gauss", 1), (.num 1, 1), (.str "turb", 2), (.num 2, 2),
   (.str "exp", 3), (.num 3, 3), (.str "dev", 4), (.num 4, 4), (.str "bdc", 5), (.num 5, 5),
   (.str "bd", 10), (.num 10, 10), (.str "bdf", 6), (.num 6, 6), (.num 9, 9), (.str "cm", 9),
   (.str "coellip", 7), (.num 7, 7)]

/-- `gmix.py:1102-1123` `_gmix_string_dict`. -/
def stringDict : List (ModelArg × String) :=
  [(.num 0, "full"), (.str "full", "full"), (.num 1, "gauss"), (.str "gauss", "gauss"),
   (.num 2, "turb"), (.str "turb", "turb"), (.num 3, "exp"), (.str "exp", "exp"),
   (.num 4, "dev"), (.str "dev", "dev"), (.num 5, "bdc"), (.str "bdc", "bdc"),
   (.num 10, "bd"), (.str "bd", "bd"), (.num 6, "bdf"), (.str "bdf", "bdf"),
   (.num 9, "cm"), (.str "cm", "cm"), (.num 7, "coellip"), (.str "coellip", "coellip")]

/-- `gmix.py:1126-1135` `_gmix_npars_dict`. -/
def nparsDict : List (ℕ × ℕ) :=
  [(1, 6), (2, 6), (3, 6), (4, 6), (9, 6), (10, 8), (6, 7), (5, 8)]

/-- `gmix.py:1137-1160` `_gmix_ngauss_dict`. -/
def ngaussDict : List (ModelArg × ℕ) :=
  [(.num 1, 1), (.str "gauss", 1), (.num 2, 3), (.str "turb", 3), (.num 3, 6), (.str "exp", 6),
   (.num 4, 10), (.str "dev", 10), (.num 9, 16), (.num 10, 16), (.num 6, 16), (.num 5, 16),
   (.str "em1", 1), (.str "em2", 2), (.str "em3", 3), (.str "em4", 4), (.str "em5", 5),
   (.str "coellip1", 1), (.str "coellip2", 2), (.str "coellip3", 3), (.str "coellip4", 4),
   (.str "coellip5", 5)]

/-- `gmix.py:1212-1219` `get_model_num`. -/
def getModelNum (m : ModelArg) : Except PyErr ℕ :=
  match modelDict.lookup m with
  | some n => .ok n
  | none => .error .value

/-- `gmix.py:1222-1229` `get_model_name`. -/
def getModelName (m : ModelArg) : Except PyErr String :=
  match stringDict.lookup m with
  | some n => .ok n
  | none => .error .value

/-- `gmix.py:1232-1238` `get_model_ngauss`. -/
def getModelNgauss (m : ModelArg) : Except PyErr ℕ :=
  match ngaussDict.lookup m with
  | some n => .ok n
  | none => .error .value

/-- `gmix.py:1241-1249` `get_model_npars`. -/
def getModelNpars (m : ModelArg) : Except PyErr ℕ :=
  match modelDict.lookup m with
  | none => .error .value
  | some mi =>
    match nparsDict.lookup mi with
    | some n => .ok n
    | none => .error .key

/-! ### Objects -/

/-- Which class the object is, with the extra attributes of `GMixCM`.  `gmix.py:63, 902, 952, 1025`. -/
inductive GKind
  | full
  | model (name : String)
  | cm (fracdev TdByTe Tfactor : ℝ)
  | coellip

/-- A mixture object: `_npars`, `_ngauss`, `_pars`, `_data`.  `gmix.py:96-118, 869-880, 920-930`. -/
structure GMixObj where
  kind : GKind
  npars : ℕ
  ngauss : ℕ
  pars : List ℝ
  data : List Gauss

/-- `gmix.py:785-790` `reset`. -/
def resetObj (kind : GKind) (npars ngauss : ℕ) : GMixObj :=
  ⟨kind, npars, ngauss, List.replicate npars 0, List.replicate ngauss Gauss.zero⟩

/-- The fill functions of `_gmix_fill_functions` (`gmix_nb.py:587-597`) applied to a parameter array
of the right length, as called in `GMix._fill` (`gmix.py:396-412`) and `GMixCM._fill`
(`gmix.py:981-997`).  `GMixModel` calls `gmix_fill_cm` with two arguments instead of five:
`TypeError`. -/
def fillFunc (kind : GKind) (pars : List ℝ) : Except PyErr (List Gauss) :=
  match kind, pars with
  | .full, pars => .ok (fillFull pars)
  | .coellip, row :: col :: g1 :: g2 :: rest =>
      let n := rest.length / 2
      fillCoellip row col g1 g2 ((rest.take n).zip (rest.drop n))
  | .model "gauss", [row, col, g1, g2, T, F] => fillSimple fvalsGauss pvalsGauss row col g1 g2 T F
  | .model "turb", [row, col, g1, g2, T, F] => fillSimple fvalsTurb pvalsTurb row col g1 g2 T F
  | .model "exp", [row, col, g1, g2, T, F] => fillSimple fvalsExp pvalsExp row col g1 g2 T F
  | .model "dev", [row, col, g1, g2, T, F] => fillSimple fvalsDev pvalsDev row col g1 g2 T F
  | .model "bd", [row, col, g1, g2, T, lTrat, fracdev, F] => fillBd row col g1 g2 T lTrat fracdev F
  | .model "bdf", [row, col, g1, g2, T, fracdev, F] => fillBdf row col g1 g2 T fracdev F
  | .cm fracdev TdByTe Tfactor, [row, col, g1, g2, T, F] =>
      fillCm fracdev TdByTe Tfactor row col g1 g2 T F
  | .model "cm", _ => .error .type
  | _, _ => .error .index

/-- `gmix.py:396-412` `_fill`: the parameters are stored before the fill function runs. -/
def fillObj (o : GMixObj) (pars : List ℝ) : GMixObj × Except PyErr Unit :=
  let o1 := { o with pars := pars }
  match fillFunc o.kind pars with
  | .ok d => ({ o1 with data := d }, .ok ())
  | .error e => (o1, .error e)

/-- `gmix.py:378-394` `fill`. -/
def fillChecked (o : GMixObj) (pars : List ℝ) : GMixObj × Except PyErr Unit :=
  if pars.length ≠ o.npars then (o, .error .value) else fillObj o pars

/-- Constructors: an exception means there is no object.  `gmix.py:96-118, 917-930, 968-973, 1038-1057`. -/
def built (r : GMixObj × Except PyErr Unit) : Except PyErr GMixObj :=
  match r with
  | (o, .ok _) => .ok o
  | (_, .error e) => .error e

/-- `gmix.py:96-118` `GMix(ngauss=..., pars=...)`. -/
def newGMix (ngauss : Option ℕ) (pars : Option (List ℝ)) : Except PyErr GMixObj :=
  match pars, ngauss with
  | none, none => .error .value
  | some pars, _ =>
      if pars.length % 6 ≠ 0 then .error .value
      else built (fillObj (resetObj .full pars.length (pars.length / 6)) pars)
  | none, some n => .ok (resetObj .full (6 * n) n)

/-- The fill functions that exist, `gmix_nb.py:587-597`. -/
def fillNames : List String := ["exp", "dev", "turb", "gauss", "cm", "bd", "bdf", "coellip", "full"]

/-- `gmix.py:917-930` `GMixModel(pars, model)`. -/
def newGMixModel (pars : List ℝ) (m : ModelArg) : Except PyErr GMixObj :=
  (getModelNum m).bind fun num =>
  (getModelName (.num num)).bind fun name =>
  (getModelNgauss (.num num)).bind fun ngauss =>
  (getModelNpars (.num num)).bind fun npars =>
    if name ∉ fillNames then .error .value
    else built (fillChecked (resetObj (.model name) npars ngauss) pars)

/-- `gmix.py:968-973` `GMixCM(fracdev, TdByTe, pars)`. -/
def newGMixCM (fracdev TdByTe : ℝ) (pars : List ℝ) : Except PyErr GMixObj :=
  (getCmTfactor fracdev TdByTe).bind fun Tfactor =>
    built (fillChecked (resetObj (.cm fracdev TdByTe Tfactor) 6 16) pars)

/-- `gmix.py:1038-1057` `GMixCoellip(pars)`; `ncheck` can be negative, then `np.zeros` raises
`ValueError`. -/
def newGMixCoellip (pars : List ℝ) : Except PyErr GMixObj :=
  let ncheck : ℤ := (pars.length : ℤ) - 4
  if ncheck % 2 ≠ 0 then .error .value
  else if ncheck < 0 then .error .value
  else built (fillObj (resetObj .coellip pars.length (ncheck / 2).toNat) pars)

/-- `gmix.py:37-60` `make_gmix_model`. -/
def makeGmixModel (pars : List ℝ) (m : ModelArg) : Except PyErr GMixObj :=
  (getModelNum m).bind fun num =>
    if num = 7 then newGMixCoellip pars
    else if num = 0 then newGMix none (some pars)
    else newGMixModel pars (.num num)

/-- `copy` of the four classes, `gmix.py:414-420, 932-937, 975-979, 1059-1064`.  The base class copies
the data array (its `_pars` stay zero), the model classes rebuild from `_pars`. -/
def copyGMix (o : GMixObj) : Except PyErr GMixObj :=
  match o.kind with
  | .full => .ok { resetObj .full (6 * o.ngauss) o.ngauss with data := o.data }
  | .model name => newGMixModel o.pars (.str name)
  | .cm fracdev TdByTe _ => newGMixCM fracdev TdByTe o.pars
  | .coellip => newGMixCoellip o.pars

/-- `gmix.py:167-179` and `:939-949` `set_cen` of an object. -/
def setCenObj (o : GMixObj) (row col : ℝ) : Option GMixObj :=
  (setCen o.data row col).map fun d =>
    match o.kind with
    | .full => { o with data := d }
    | _ => { o with data := d, pars := (o.pars.set 0 row).set 1 col }

/-- `set_flux` of an object: `_pars` is not changed.  `gmix.py:276-290`. -/
def setFluxObj (o : GMixObj) (flux : ℝ) : Option GMixObj :=
  (setFlux o.data flux).map fun d => { o with data := d }

/-- `gmix.py:445-483` `get_sheared(s1, s2)`: works on `self.copy()`. -/
def getShearedObj (o : GMixObj) (s1 s2 : ℝ) : Except PyErr GMixObj :=
  (copyGMix o).bind fun c => (shearData s1 s2 c.data).map fun d => { c with data := d }

/-- `gmix.py:532-584` `make_round`: works on `self.copy()`; `none` when the numbers leave the reals. -/
def makeRoundObj (o : GMixObj) (preserveSize : Bool) : Except PyErr (Option GMixObj) :=
  (copyGMix o).bind fun c =>
    match makeRound c.data preserveSize with
    | none => .ok none
    | some r => r.map fun d => some { c with data := d }

/-- `gmix.py:1180-1209` `gmix_concat`. -/
def gmixConcat (l : List GMixObj) : Except PyErr GMixObj :=
  if l.length = 0 then .error .value
  else newGMix none (some (l.flatMap fun o => getFullPars o.data))

/-- `gmix.py:485-508` `convolve` (argument a mixture). -/
def convolveObj (o psf : GMixObj) : Except PyErr GMixObj :=
  (gmixConvolve o.data psf.data).map fun d =>
    { resetObj .full (6 * (o.ngauss * psf.ngauss)) (o.ngauss * psf.ngauss) with data := d }

/-- `gmix.py:612-638` `fill_fdiff`: the check on the space left uses the image size. -/
def fillFdiffObj (data : List Gauss) (imageSize : ℕ) (pixels : List Pixel) (fdiff : List ℝ) (start : ℕ) :
    List Gauss × Except PyErr (List ℝ) :=
  if (fdiff.length : ℤ) - start < imageSize then (data, .error .value)
  else fillFdiffNb data pixels start fdiff

end

end Ngmix
