import Verif.Model.GMixNDObj

/-!
# Specification: what a history of operations on a `GMixND` means

Histories are lists with the latest operation first.
-/

namespace Ngmix.Spec

open Ngmix

variable {n : ℕ} {σ : Type}

mutual

/-- The mixture sent last: by `set_mixture`, from a file that could be read, or by a fit that ended. -/
def heldMix (files : String → Except PyErr (List (NDIn n))) (lost : PyErr) : List (NDOp n σ) → Option (List (NDIn n))
  | [] => none
  | .set gm :: _ => some gm
  | .load f :: h =>
      match fileMix files lost h f with
      | .ok gm => some gm
      | .error _ => heldMix files lost h
  | .fit _ (.ok r) :: _ => some r.1
  | .fit _ (.error _) :: h => heldMix files lost h
  | .save _ :: h => heldMix files lost h
  | .sample _ :: h => heldMix files lost h
  | .other _ _ :: h => heldMix files lost h

/-- What a file holds: what was last written to it, by this object or by another program. -/
def fileMix (files : String → Except PyErr (List (NDIn n))) (lost : PyErr) :
    List (NDOp n σ) → String → Except PyErr (List (NDIn n))
  | [], f => files f
  | .save g :: h, f =>
      if f = g then (match heldMix files lost h with | some gm => .ok gm | none => .error lost)
      else fileMix files lost h f
  | .other g c :: h, f => if f = g then c else fileMix files lost h f
  | .set _ :: h, f => fileMix files lost h f
  | .load _ :: h, f => fileMix files lost h f
  | .fit _ _ :: h, f => fileMix files lost h f
  | .sample _ :: h, f => fileMix files lost h f

end

/-- The mixture samples are drawn from: that of the last fit; without a fit, the one held at the first sample that got
past making the sampler. -/
def samplerMix (files : String → Except PyErr (List (NDIn n))) (x : NDExt n σ) :
    List (NDOp n σ) → Option (List (NDIn n))
  | [] => none
  | .fit _ (.ok r) :: _ => some r.1
  | .sample _ :: h =>
      match samplerMix files x h with
      | some gm => some gm
      | none =>
          match heldMix files x.lost h with
          | none => none
          | some gm => match x.chol (gm.map (·.covar)) with | .ok () => some gm | .error _ => none
  | _ :: h => samplerMix files x h

end Ngmix.Spec
