import Verif.Model.GMix
import Verif.Model.Jacobian

/-!
# Mixtures and Jacobians as objects with their own arrays

`Model/GMix.lean` and `Model/Jacobian.lean` say what the methods compute.  Here the objects live on a
heap: a mixture holds references to two numpy arrays (`_pars`, `_data`), a Jacobian to one
(`_data`), and callers hold references to arrays of their own.  Every assignment in the code is an
element assignment into an existing array or the making of a new one; the steps below follow that.
-/

noncomputable section

namespace Ngmix

/-- A mixture object: its class, sizes, and the addresses of `_pars` and `_data`.
`gmix.py:96-118, 785-790, 920-930, 968-973, 1038-1057`. -/
structure MixRef where
  kind : GKind
  npars : ℕ
  ngauss : ℕ
  pars : ℕ
  data : ℕ

/-- The heap: arrays of numbers (the callers' and the objects' `_pars`), arrays of gaussians
(`_data` of mixtures), `_data` of Jacobians, and the objects.  `handed a`: the caller holds the array
of numbers `a`.  `gmix.py:785-790`, `jacobian.py:60-68`. -/
structure MixHeap where
  num : ℕ → List ℝ
  nNum : ℕ
  handed : ℕ → Prop
  dat : ℕ → List Gauss
  nDat : ℕ
  mix : ℕ → MixRef
  nMix : ℕ
  jac : ℕ → Jacobian
  nJac : ℕ
  jobj : ℕ → ℕ
  nJobj : ℕ

/-- Assignment to one address, as in `gmix.py:396-412` `_fill`. -/
def upd {α : Type} (f : ℕ → α) (a : ℕ) (v : α) : ℕ → α := fun x => if x = a then v else f x

/-- What a mixture object shows: its attributes with the contents of its arrays.  `gmix.py:785-790`. -/
def MixHeap.get (w : MixHeap) (i : ℕ) : GMixObj :=
  ⟨(w.mix i).kind, (w.mix i).npars, (w.mix i).ngauss, w.num (w.mix i).pars, w.dat (w.mix i).data⟩

/-- What a Jacobian object shows.  `jacobian.py:60-68`. -/
def MixHeap.getJac (w : MixHeap) (j : ℕ) : Jacobian := w.jac (w.jobj j)

/-- `gmix.py:785-790` `reset` in a constructor: two new zeroed arrays and the object that holds them. -/
def MixHeap.reset (w : MixHeap) (kind : GKind) (npars ngauss : ℕ) : MixHeap :=
  { w with
    num := upd w.num w.nNum (List.replicate npars 0)
    nNum := w.nNum + 1
    dat := upd w.dat w.nDat (List.replicate ngauss Gauss.zero)
    nDat := w.nDat + 1
    mix := upd w.mix w.nMix ⟨kind, npars, ngauss, w.nNum, w.nDat⟩
    nMix := w.nMix + 1 }

/-- Element assignments `self._pars[...] = ...` and `gm[...] = ...` into the arrays of object `i`
(`gmix.py:167-179, 276-290, 396-412, 939-949`). -/
def MixHeap.put (w : MixHeap) (i : ℕ) (o : GMixObj) : MixHeap :=
  { w with
    num := upd w.num (w.mix i).pars o.pars
    dat := upd w.dat (w.mix i).data o.data }

/-- A constructor or a method that returns a new mixture: `reset`, then the arrays are filled; a
refusal leaves no object.  `gmix.py:96-118, 414-420, 485-508, 917-937, 968-979, 1038-1064`. -/
def MixHeap.create (w : MixHeap) (r : Except PyErr GMixObj) : MixHeap × Except PyErr Unit :=
  match r with
  | .ok o => ((w.reset o.kind o.npars o.ngauss).put w.nMix o, .ok ())
  | .error e => (w, .error e)

/-- A new array of numbers handed to the caller, as `gmix.py:126-150` `get_full_pars` does. -/
def MixHeap.newArray (w : MixHeap) (l : List ℝ) : MixHeap :=
  { w with
    num := upd w.num w.nNum l
    nNum := w.nNum + 1
    handed := fun a => a = w.nNum ∨ w.handed a }

/-- A new Jacobian object with its own array.  `jacobian.py:60-68, 311-327`. -/
def MixHeap.createJac (w : MixHeap) (r : Except PyErr Jacobian) : MixHeap × Except PyErr Unit :=
  match r with
  | .ok j =>
      ({ w with
          jac := upd w.jac w.nJac j
          nJac := w.nJac + 1
          jobj := upd w.jobj w.nJobj w.nJac
          nJobj := w.nJobj + 1 }, .ok ())
  | .error e => (w, .error e)

/-- What a program can do with mixtures, Jacobians and its own arrays: the methods of
`gmix.py:63-1064` and `jacobian.py:60-327`. -/
inductive WOp
  /-- the caller makes an array -/
  | newArray (l : List ℝ)
  /-- the caller writes to an array it holds -/
  | writeArray (a k : ℕ) (v : ℝ)
  /-- `make_gmix_model(pars, model)`, `gmix.py:37-60` -/
  | make (a : ℕ) (m : ModelArg)
  /-- `GMixCM(fracdev, TdByTe, pars)`, `gmix.py:968-973` -/
  | makeCM (fracdev TdByTe : ℝ) (a : ℕ)
  /-- `GMix(ngauss=n)`, `gmix.py:96-118` -/
  | makeEmpty (n : ℕ)
  /-- `gm.copy()`, `gmix.py:414-430, 932-937, 975-979, 1059-1064` -/
  | copy (i : ℕ)
  /-- `gm.get_sheared(s1, s2)`, `gmix.py:445-483` -/
  | shear (i : ℕ) (s1 s2 : ℝ)
  /-- `gm.make_round(preserve_size)`, `gmix.py:532-584` -/
  | round (i : ℕ) (preserve : Bool)
  /-- `gm.convolve(psf)`, `gmix.py:485-508` -/
  | convolve (i psf : ℕ)
  /-- `gmix_concat`, `gmix.py:1180-1209` -/
  | concat (l : List ℕ)
  /-- `gm.get_full_pars()`, `gmix.py:126-149` -/
  | fullPars (i : ℕ)
  /-- `gm.fill(pars)`, `gmix.py:378-412` -/
  | fill (i a : ℕ)
  /-- `gm.set_cen(row, col)`, `gmix.py:167-179, 939-949` -/
  | setCen (i : ℕ) (row col : ℝ)
  /-- `gm.set_flux(flux)`, `gmix.py:276-290` -/
  | setFlux (i : ℕ) (flux : ℝ)
  /-- `gm.set_norms_if_needed()`, which every evaluation starts with, `gmix.py:369-376` -/
  | norms (i : ℕ)
  /-- `gm.get_data()[k] = g`, `gmix.py:120-124` -/
  | writeData (i k : ℕ) (g : Gauss)
  /-- `Jacobian(**kw)`, `jacobian.py:60-68` -/
  | newJac (kw : Kw)
  /-- `jac.copy()`, `jacobian.py:222-239` -/
  | copyJac (j : ℕ)
  /-- `jac.set_cen(**kw)`, `jacobian.py:198-220` -/
  | setCenJac (j : ℕ) (kw : Kw)

/-- One call: the heap left behind and the outcome; `none` when the numbers leave the reals (division
by a zero flux).  Dispatch to the definitions above and in `GMix.lean`, `GMixMore.lean`, `Jacobian.lean`, each with its own lines;
`make` is `gmix.py:37-60`. -/
def wStep (w : MixHeap) : WOp → Option (MixHeap × Except PyErr Unit)
  | .newArray l => some (w.newArray l, .ok ())
  | .writeArray a k v =>
      if k < (w.num a).length then some ({ w with num := upd w.num a ((w.num a).set k v) }, .ok ())
      else some (w, .error .index)
  | .make a m => some (w.create (makeGmixModel (w.num a) m))
  | .makeCM fd Td a => some (w.create (newGMixCM fd Td (w.num a)))
  | .makeEmpty n => some (w.create (newGMix (some n) none))
  | .copy i => some (w.create (copyGMix (w.get i)))
  | .shear i s1 s2 => some (w.create (getShearedObj (w.get i) s1 s2))
  | .round i p =>
      match makeRoundObj (w.get i) p with
      | .error e => some (w, .error e)
      | .ok none => none
      | .ok (some o) => some (w.create (.ok o))
  | .convolve i k => some (w.create (convolveObj (w.get i) (w.get k)))
  | .concat l => some (w.create (gmixConcat (l.map w.get)))
  | .fullPars i => some (w.newArray (getFullPars (w.get i).data), .ok ())
  | .fill i a =>
      let r := fillChecked (w.get i) (w.num a)
      some (w.put i r.1, r.2)
  | .setCen i row col => (setCenObj (w.get i) row col).map fun o => (w.put i o, .ok ())
  | .setFlux i f => (setFluxObj (w.get i) f).map fun o => (w.put i o, .ok ())
  | .norms i =>
      let r := setNormsIfNeeded (w.get i).data
      some (w.put i { w.get i with data := r.1 }, r.2)
  | .writeData i k g =>
      if k < (w.get i).data.length then
        some (w.put i { w.get i with data := (w.get i).data.set k g }, .ok ())
      else some (w, .error .index)
  | .newJac kw => some (w.createJac (Jacobian.new kw))
  | .copyJac j => some (w.createJac (w.getJac j).copy)
  | .setCenJac j kw =>
      let r := (w.getJac j).setCen kw
      some ({ w with jac := upd w.jac (w.jobj j) r.1 }, r.2)

/-- A heap without objects, before any call of `gmix.py:96-118` or `jacobian.py:60-68`. -/
def MixHeap.empty : MixHeap :=
  ⟨fun _ => [], 0, fun _ => False, fun _ => [], 0, fun _ => ⟨.full, 0, 0, 0, 0⟩, 0,
    fun _ => Jacobian.finishInit 0 0 1 0 0 1, 0, fun _ => 0, 0⟩

end Ngmix
