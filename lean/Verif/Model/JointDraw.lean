import Verif.Model.SampleDraw
import Verif.Model.JointPrior

/-!
# `sample` of the joint priors of `/repo/ngmix/joint_prior.py`

Each part is asked for `nrand` values; what each of these calls does is given.
-/

namespace Ngmix

noncomputable section

/-- Results of calls made one after the other: the first exception ends the sequence, as among
the draws of `joint_prior.py:209-221, 444-460, 640-654, 837-851, 1012-1027`. -/
def callsInOrder {α : Type} : List (Except PyErr α) → Except PyErr (List α)
  | [] => .ok []
  | x :: r => x.bind fun v => (callsInOrder r).bind fun l => .ok (v :: l)

/-- The values put in the `n` rows of a column by `samples[:, i] = array`: numpy repeats an array of one value and refuses any
other length with a `ValueError`.  `joint_prior.py:214-218, 449-455, 645-650, 842-847`. -/
def drawSpread {α : Type} (n : ℕ) (l : List α) : Except PyErr (List α) :=
  if l.length = n then .ok l
  else match l with
    | [x] => .ok (List.replicate n x)
    | _ => .error .value

/-- `samples[:, i] = value`.  `joint_prior.py:218, 223, 453-455, 460, 649-650, 655, 846-847, 852`. -/
def drawColumn (n : ℕ) : Sample → Except PyErr (List ℝ)
  | .one x => .ok (List.replicate n x)
  | .many l => drawSpread n l

/-- The two columns of a pair.  `joint_prior.py:214-217, 449-452, 645-648, 842-845`. -/
def drawColumn2 (n : ℕ) : Sample2 → Except PyErr (List (ℝ × ℝ))
  | .one x => .ok (List.replicate n x)
  | .many l => drawSpread n l

/-- What `sample` of a joint prior returns: an array of shape `[npars]` or of shape `[n, npars]`.  `joint_prior.py:190-226`. -/
inductive JSample
  | one (row : List ℝ)
  | many (rows : List (List ℝ))

/-- `if is_scalar: samples = samples[0, :]`.  `joint_prior.py:225-227, 462-464, 657-659, 854-856`. -/
def unpackRows (nrand : Option ℕ) (l : List (List ℝ)) : Except PyErr JSample :=
  match nrand, l with
  | none, x :: _ => .ok (.one x)
  | none, [] => .error .index
  | some _, l => .ok (.many l)

/-- `sample(nrand)` of the classes other than `PriorCoellipSame`, `joint_prior.py:190-226`, `:425-465`, `:622-659`,
`:818-856`: the center, the shape and the priors `mids` are asked for their values, the columns are filled, and then each flux
prior is asked for its values and its column is filled. -/
def JointPrior.sample (p : JointPrior) (nrand : Option ℕ) (cen g : Except PyErr Sample2) (mids fs : List (Except PyErr Sample)) :
    Except PyErr JSample :=
  let n := nrand.getD 1
  cen.bind fun cen => g.bind fun g => (callsInOrder mids).bind fun mids =>
    (drawColumn2 n cen).bind fun cen => (drawColumn2 n g).bind fun g => (callsInOrder (mids.map (drawColumn n))).bind fun mids =>
      (callsInOrder (fs.map fun f => f.bind (drawColumn n))).bind fun fs =>
        (callsInOrder ((List.range n).map fun k => p.sampleRow (cen.getD k (0, 0)) (g.getD k (0, 0)) (mids.map fun l => l.getD k 0)
          (fs.map fun l => l.getD k 0))).bind (unpackRows nrand)

end

end Ngmix
