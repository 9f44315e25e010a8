import Verif.Model.Priors
import Verif.Model.Leastsq

/-!
# Model of `/repo/ngmix/joint_prior.py`

The classes differ only in which one dimensional priors they hold and in which method of those priors they
call.  The array given to `fill_fdiff` is a list of doubles; what it holds after an exception is not modelled
(the only caller overwrites or drops it).
-/

namespace Ngmix

noncomputable section

/-- The classes of `joint_prior.py` (`PriorGalsimSimpleSep`, `:239-264`, only renames an argument of
`PriorSimpleSep`). -/
inductive JClass
  | simple | bd | bdf | spergel
  | coellip (ngauss : ℕ)

/-- A joint prior: `mids` are the priors of the parameters after the shape and before the fluxes:
`[T]` (`:23`), `[T, logTratio, fracdev]` (`:299-301`), `[T, fracdev]` (`:508-509`), `[r50, nu]` (`:700-701`);
`fs` is `F_priors`. -/
structure JointPrior where
  cls : JClass
  cen : CenPrior
  g : PriorG
  mids : List Prior1
  fs : List Prior1

/-- The `F_prior` argument: one prior, a list or a tuple of priors.  `joint_prior.py:21-35`. -/
inductive FArg
  | one (p : Prior1)
  | list (l : List Prior1)
  | tuple (l : List Prior1)

/-- An entry of a bounds list: a pair, or (in `PriorCoellipSame`) a list of pairs.  `joint_prior.py:37-61, 887-917`. -/
inductive BEntry
  | pair (lo hi : Option ℝ)
  | nested (l : List (Option ℝ × Option ℝ))

/-- `(p.bounds[0], p.bounds[1]) if p.has_bounds() else (None, None)`.  `joint_prior.py:41-59`. -/
def boundPair (p : Prior1) : Option ℝ × Option ℝ :=
  match p.bounds with
  | some b => (some b.1, some b.2)
  | none => (none, none)

namespace JointPrior

/-- `set_bounds`: `joint_prior.py:37-61`, `:313-341`, `:519-543`, `:712-736` and, for `PriorCoellipSame`,
`:887-917`. -/
def setBounds (cls : JClass) (mids fs : List Prior1) : Option (List BEntry) :=
  let head := List.replicate 4 (BEntry.pair none none)
  match cls with
  | .coellip ngauss =>
    let allp := (mids.flatMap fun p => List.replicate ngauss p) ++ fs
    let some_have := allp.any fun p => p.bounds.isSome
    let bounds := head ++ allp.flatMap fun p => List.replicate ngauss (BEntry.nested [boundPair p])
    if some_have then some bounds else none
  | _ =>
    let allp := mids ++ fs
    let some_have := allp.any fun p => p.bounds.isSome
    let bounds := head ++ allp.map fun p => BEntry.pair (boundPair p).1 (boundPair p).2
    if some_have then some bounds else none

/-- `PriorSimpleSep.__init__`, `joint_prior.py:21-35`, and `PriorSpergelSep.__init__`, `:695-710`: a tuple is
wrapped as if it was one prior, and `set_bounds` fails on it. -/
def mkSimple (cls : JClass) (cen : CenPrior) (g : PriorG) (mids : List Prior1) (F : FArg) :
    Except PyErr JointPrior :=
  match F with
  | .list l => .ok ⟨cls, cen, g, mids, l⟩
  | .one p => .ok ⟨cls, cen, g, mids, [p]⟩
  | .tuple _ => .error .attribute

/-- `PriorBDSep.__init__`, `joint_prior.py:287-313`, and `PriorBDFSep.__init__`, `:502-517`: a tuple is
accepted by the type test, but `set_bounds` adds it to a list. -/
def mkBD (cls : JClass) (cen : CenPrior) (g : PriorG) (mids : List Prior1) (F : FArg) :
    Except PyErr JointPrior :=
  match F with
  | .list l => .ok ⟨cls, cen, g, mids, l⟩
  | .one p => .ok ⟨cls, cen, g, mids, [p]⟩
  | .tuple _ => .error .type

/-- `PriorCoellipSame.__init__`, `joint_prior.py:875-885`. -/
def mkCoellip (ngauss : ℕ) (cen : CenPrior) (g : PriorG) (T : Prior1) (F : FArg) : Except PyErr JointPrior :=
  (mkSimple (.coellip ngauss) cen g [T] F).bind fun p =>
    if p.fs.length ≠ 1 then .error .value else .ok p

/-- The attribute `bounds`, set by every constructor.  `joint_prior.py:35, 61`. -/
def bounds (p : JointPrior) : Option (List BEntry) := setBounds p.cls p.mids p.fs

/-- Number of parameters of the samples: `zeros((nrand, 5 + nband))` `joint_prior.py:207`, `7 + nband` `:442`,
`6 + nband` `:638`, `:835`; `npars` of `PriorCoellipSame` `:879` (`gmix.py:1252-1256`). -/
def npars (p : JointPrior) : ℕ :=
  match p.cls with
  | .simple => 5 + p.fs.length
  | .bd => 7 + p.fs.length
  | .bdf => 6 + p.fs.length
  | .spergel => 6 + p.fs.length
  | .coellip n => 4 + 2 * n

/-- `pars[i]`.  `joint_prior.py:136-153`. -/
def parAt (pars : List ℝ) (i : ℕ) : Except PyErr ℝ :=
  match pars[i]? with
  | some x => .ok x
  | none => .error .index

/-- `prior.method(pars[i])`.  `joint_prior.py:148-151`. -/
def at1 (f : ℝ → Except PyErr Fl) (pars : List ℝ) (i : ℕ) : Except PyErr Fl := (parAt pars i).bind f

/-- `prior.method(pars[i], pars[j])`.  `joint_prior.py:145-146`. -/
def at2 (f : ℝ → ℝ → Except PyErr Fl) (pars : List ℝ) (i j : ℕ) : Except PyErr Fl :=
  (parAt pars i).bind fun x => (parAt pars j).bind fun y => f x y

/-- The calls on the one dimensional priors, in order, when the first one takes `pars[4]`
(`m` is `get_lnprob_scalar` or `get_fdiff`).  `joint_prior.py:108-114, 355-360, 557-561, 750-754, 936-942`. -/
def oneDTerms (m : Prior1 → ℝ → Except PyErr Fl) (p : JointPrior) (pars : List ℝ) : List (Except PyErr Fl) :=
  match p.cls, p.mids, p.fs with
  -- joint_prior.py:108-114, :148-151
  | .simple, [T], fs =>
    at1 (m T) pars 4 :: fs.zipIdx.map fun F => at1 (m F.1) pars (5 + F.2)
  -- joint_prior.py:355-360, :386-399
  | .bd, [T, r, f], fs =>
    at1 (m T) pars 4 :: at1 (m r) pars 5 :: at1 (m f) pars 6 ::
      fs.zipIdx.map fun F => at1 (m F.1) pars (7 + F.2)
  -- joint_prior.py:557-561, :588-597
  | .bdf, [T, f], fs =>
    at1 (m T) pars 4 :: at1 (m f) pars 5 :: fs.zipIdx.map fun F => at1 (m F.1) pars (6 + F.2)
  -- joint_prior.py:750-754, :780-789
  | .spergel, [r, nu], fs =>
    at1 (m r) pars 4 :: at1 (m nu) pars 5 :: fs.zipIdx.map fun F => at1 (m F.1) pars (6 + F.2)
  -- joint_prior.py:936-942, :974-984
  | .coellip n, [T], F :: _ =>
    ((List.range n).map fun i : ℕ => at1 (m T) pars (4 + i)) ++
      (List.range n).map fun i : ℕ => at1 (m F) pars (4 + n + i)
  | _, _, _ => [.error .attribute]

/-- `lnp += term` for each term, in order.  `joint_prior.py:143-153`. -/
def sumTerms : List (Except PyErr Fl) → Fl → Except PyErr Fl
  | [], acc => .ok acc
  | t :: ts, acc => t.bind fun v => sumTerms ts (acc + v)

/-- `get_lnprob_scalar`: `joint_prior.py:136-153`, `:343-362`, `:545-563`, `:738-756`, `:919-944`. -/
def lnprob (p : JointPrior) (pars : List ℝ) : Except PyErr Fl :=
  let go := (at2 (fun x y => .ok (.fin (p.cen.lnprob x y))) pars 0 1).bind fun c =>
    (at2 p.g.lnprob pars 2 3).bind fun gl =>
      sumTerms (oneDTerms Prior1.lnprob p pars) (c + gl)
  match p.cls with
  | .coellip _ => if pars.length ≠ p.npars then .error .value else go
  | _ => go

/-- `fdiff[i] = v`.  `joint_prior.py:99-114`. -/
def fdWrite (fdiff : List Fl) (i : ℕ) (v : Fl) : Except PyErr (List Fl) :=
  if i < fdiff.length then .ok (fdiff.set i v) else .error .index

/-- `fdiff[index] = term; index += 1` for each term.  `joint_prior.py:97-114`. -/
def writeTerms : List (Except PyErr Fl) → List Fl → ℕ → Except PyErr (List Fl × ℕ)
  | [], fdiff, i => .ok (fdiff, i)
  | t :: ts, fdiff, i => t.bind fun v => (fdWrite fdiff i v).bind fun fdiff' => writeTerms ts fdiff' (i + 1)

/-- `chi2 = -2*fdiff[0:index]; chi2.clip(min=0); fdiff[0:index] = sqrt(chi2)`.  `joint_prior.py:116-118, 791-793, 986-988`. -/
def rootPrefix (fdiff : List Fl) (n : ℕ) : List Fl :=
  ((fdiff.take n).map fun x => Fl.sqrt (Fl.clip0 (.fin (-2) * x))) ++ fdiff.drop n

/-- The calls of `fill_fdiff` that give log probabilities.  `joint_prior.py:97-114, 769-789, 957-984`. -/
def lnTerms (p : JointPrior) (pars : List ℝ) : List (Except PyErr Fl) :=
  at2 (fun x y => .ok (.fin (p.cen.lnprobSep x y).1)) pars 0 1 ::
  at2 (fun x y => .ok (.fin (p.cen.lnprobSep x y).2)) pars 0 1 ::
  at2 p.g.lnprob pars 2 3 :: oneDTerms Prior1.lnprob p pars

/-- The calls of `fill_fdiff` that give residuals.  `joint_prior.py:375-399, 576-597`. -/
def fdTerms (p : JointPrior) (pars : List ℝ) : List (Except PyErr Fl) :=
  at2 (fun x y => .ok (.fin (p.cen.fdiff x y).1)) pars 0 1 ::
  at2 (fun x y => .ok (.fin (p.cen.fdiff x y).2)) pars 0 1 ::
  at2 p.g.fdiff pars 2 3 :: oneDTerms Prior1.fdiff p pars

/-- `fill_fdiff`: the array and the returned index.  `joint_prior.py:86-120` (simple), `:364-401` (bd),
`:565-599` (bdf), `:758-795` (spergel), `:946-990` (coellip). -/
def fillFdiff (p : JointPrior) (pars : List ℝ) (fdiff : List Fl) : Except PyErr (List Fl × ℕ) :=
  let viaLn := (writeTerms (lnTerms p pars) fdiff 0).map fun r => (rootPrefix r.1 r.2, r.2)
  match p.cls with
  | .bd => writeTerms (fdTerms p pars) fdiff 0
  | .bdf => writeTerms (fdTerms p pars) fdiff 0
  | .coellip _ => if pars.length ≠ p.npars then .error .value else viaLn
  | _ => viaLn

/-- `samples[:, i] = v` on one row of the zeroed array.  `joint_prior.py:209-221`. -/
def colSet (row : List ℝ) (i : ℕ) (v : ℝ) : Except PyErr (List ℝ) :=
  if i < row.length then .ok (row.set i v) else .error .index

/-- Successive column assignments.  `joint_prior.py:209-221`. -/
def colSets : List (ℕ × ℝ) → List ℝ → Except PyErr (List ℝ)
  | [], row => .ok row
  | (i, v) :: r, row => (colSet row i v).bind (colSets r)

/-- `samples[:, i] += v`.  `joint_prior.py:1016-1027`. -/
def colAdd (row : List ℝ) (i : ℕ) (v : ℝ) : Except PyErr (List ℝ) :=
  match row[i]? with
  | some x => .ok (row.set i (x + v))
  | none => .error .index

/-- Successive `+=`.  `joint_prior.py:1016-1027`. -/
def colAdds : List (ℕ × ℝ) → List ℝ → Except PyErr (List ℝ)
  | [], row => .ok row
  | (i, v) :: r, row => (colAdd row i v).bind (colAdds r)

/-- One row of `sample(nrand)` of the classes other than `PriorCoellipSame`, `joint_prior.py:190-226`,
`:425-465`, `:622-659`, `:818-856`: `mids` and `fs` are the draws of the one dimensional priors, one each. -/
def sampleRow (p : JointPrior) (cen g : ℝ × ℝ) (mids fs : List ℝ) : Except PyErr (List ℝ) :=
  colSets ([(0, cen.1), (1, cen.2), (2, g.1), (3, g.2)] ++
      (mids.zipIdx.map fun x => (4 + x.2, x.1)) ++
      (fs.zipIdx.map fun x => (4 + p.mids.length + x.2, x.1))) (List.replicate p.npars 0)

/-- One row of `PriorCoellipSame.sample`, `joint_prior.py:992-1031`: `T` is the first draw of the size prior,
`Ts` and `Fs` the draws made in the two loops. -/
def sampleRowCoellip (p : JointPrior) (ngauss : ℕ) (cen g : ℝ × ℝ) (T : ℝ) (Ts Fs : List ℝ) :
    Except PyErr (List ℝ) :=
  (colSets [(0, cen.1), (1, cen.2), (2, g.1), (3, g.2), (4, T)] (List.replicate p.npars 0)).bind fun row =>
    (colAdds (Ts.zipIdx.map fun x => (4 + x.2, x.1)) row).bind fun row =>
      colSets (Fs.zipIdx.map fun x => (4 + ngauss + x.2, x.1)) row

/-- `lower, upper = bound`, `leastsqbound.py:222`, `:254`. -/
def unpackOne : BEntry → Except PyErr (Option ℝ × Option ℝ)
  | .pair lo hi => .ok (lo, hi)
  | .nested [_, _] => .error .type
  | .nested _ => .error .value

/-- The comprehension over the bounds, `leastsqbound.py:207`, `:239`. -/
def unpackAll : List BEntry → Except PyErr (List (Option ℝ × Option ℝ))
  | [] => .ok []
  | e :: es => (unpackOne e).bind fun b => (unpackAll es).map fun bs => b :: bs

/-- What `leastsqbound(..., bounds=...)` with `n` parameters does first with the bounds,
`leastsqbound.py:450-457`: unpack each, then the length test. -/
def unpackBounds (n : ℕ) (b : List BEntry) : Except PyErr (List (Option ℝ × Option ℝ)) :=
  (unpackAll b).bind fun l => if l.length ≠ n then .error .value else .ok l

end JointPrior

end

end Ngmix
