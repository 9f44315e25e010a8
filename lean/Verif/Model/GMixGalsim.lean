import Verif.Model.GMix

/-!
# Model of `GMix.make_galsim_object`, `/repo/ngmix/gmix/gmix.py:792-867`

The galsim objects are kept as the expressions the code builds; what they mean is in
`Verif.Spec.GMixGalsim`.  `P` is the type of `galsim.GSParams`.
-/

namespace Ngmix

noncomputable section

/-- What is built for one component: a round gaussian, sheared and shifted.  `gmix.py:854-860`. -/
inductive GSObj (P : Type)
  | gaussian (flux sigma : ℝ) (gsparams : Option P)
  | shear (o : GSObj P) (g1 g2 : ℝ)
  | shift (o : GSObj P) (dx dy : ℝ)

/-- The `gsparams` argument: absent, a `GSParams`, a dict (with what `galsim.GSParams(**d)` does), or
anything else.  `gmix.py:813-828`. -/
inductive GSParamsArg (P : Type)
  | none
  | obj (p : P)
  | dict (r : Except PyErr P)
  | other

/-- `gmix.py:813-828`: the parameters used. -/
def gsParams {P : Type} : GSParamsArg P → Except PyErr (Option P)
  | .none => .ok Option.none
  | .obj p => .ok (some p)
  | .dict r => r.map some
  | .other => .error .type

/-- The body of the loop of `gmix.py:833-862`.  `none` when a number leaves the reals: a division by a
zero `Tmin`, or the root of a negative size (a negative `Tmin`). -/
def gsComponent {P : Type} (Tmin : ℝ) (gsp : Option P) (g : Gauss) : Option (Except PyErr (GSObj P)) :=
  open Classical in
  let flux := g.p
  let T := g.irr + g.icc
  let T := if T = 0 then Tmin else T
  if T = 0 then none
  else
    let e1 := (g.icc - g.irr) / T
    let e2 := 2 * g.irc / T
    let rowshift := g.row
    let colshift := g.col
    match e1e2ToG1G2 e1 e2 with
    | .error e => some (.error e)
    | .ok gs =>
        let Tround := getTround T gs.1 gs.2
        let Tround := if Tround < Tmin then Tmin else Tround
        if Tround < 0 then none
        else
          let sigma := Real.sqrt (Tround / 2)
          some (.ok (.shift (.shear (.gaussian flux sigma gsp) gs.1 gs.2) colshift rowshift))

/-- The loop of `gmix.py:832-862`: the first exception leaves it. -/
def gsComponents {P : Type} (Tmin : ℝ) (gsp : Option P) : List Gauss → Option (Except PyErr (List (GSObj P)))
  | [] => some (.ok [])
  | g :: gs =>
      match gsComponent Tmin gsp g with
      | none => none
      | some (.error e) => some (.error e)
      | some (.ok o) => (gsComponents Tmin gsp gs).map fun r => r.map fun os => o :: os

/-- `gmix.py:792-867` `make_galsim_object`: the terms of the sum returned.  `galsim.Add` of an empty list
raises `TypeError`. -/
def makeGalsimObject {P : Type} (gm : List Gauss) (Tmin : ℝ) (gsparams : GSParamsArg P) :
    Option (Except PyErr (List (GSObj P))) :=
  match gsParams gsparams with
  | .error e => some (.error e)
  | .ok gsp =>
      match gsComponents Tmin gsp gm with
      | none => none
      | some (.error e) => some (.error e)
      | some (.ok []) => some (.error .type)
      | some (.ok os) => some (.ok os)

end

end Ngmix
