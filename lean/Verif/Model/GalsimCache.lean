import Verif.Model.Basic
import Verif.Model.Fl

/-!
# Model of the galsim object cache of `/repo/ngmix/metacal/metacal.py:23-59`

galsim is abstract: `impl` is the outcome of making the image and the interpolated image, `repr` and `eval` are
those of wcs objects (type `W`), the contents of the two objects made are a value of type `V`.  Objects live at
addresses, so that two calls that return the same objects can be told from two that return equal ones.
`functools.lru_cache` is modelled by its documentation: a hit moves the entry to the front, a miss computes, and
drops the entry used longest ago when 128 are there; an exception is not stored.  Keys are compared as python
compares tuples of new float objects: a NaN equals nothing.
-/

namespace Ngmix

/-- `==` of two floats, `metacal.py:56`. -/
def Fl.pyEq : Fl → Fl → Prop
  | .nan, _ => False
  | _, .nan => False
  | a, b => a = b

/-- Arguments of `_cached_galsim_stuff`, `metacal.py:56-57`. -/
structure GSKey where
  img : List (List Fl)
  wcs : String
  xinterp : String

/-- Equality of the keys of the cache, `metacal.py:56`: tuples of tuples of floats and two strings. -/
def GSKey.eqv (a b : GSKey) : Prop :=
  List.Forall₂ (List.Forall₂ Fl.pyEq) a.img b.img ∧ a.wcs = b.wcs ∧ a.xinterp = b.xinterp

/-- galsim as the code uses it, `metacal.py:49-59`. -/
structure GSExt (W V : Type) where
  repr : W → String
  eval : String → Except PyErr W
  impl : List (List Fl) → W → String → Except PyErr V

/-- The module state: the flag of `metacal.py:23`, the cache of `:56` (most recently used first) and the objects made
so far. -/
structure GSState (V : Type) where
  on : Bool
  entries : List (GSKey × ℕ)
  heap : List V

/-- `metacal.py:23, 56`: state at import. -/
def GSState.init {V : Type} : GSState V := ⟨false, [], []⟩

/-- `metacal.py:26-28` `turn_on_galsim_caching`. -/
def GSState.turnOn {V : Type} (s : GSState V) : GSState V := { s with on := true }

/-- `metacal.py:31-35` `turn_off_galsim_caching`. -/
def GSState.turnOff {V : Type} (s : GSState V) : GSState V := { s with on := false, entries := [] }

/-- A new object, `metacal.py:51-53`. -/
def GSState.alloc {V : Type} (s : GSState V) (v : V) : GSState V × ℕ := ({ s with heap := s.heap ++ [v] }, s.heap.length)

/-- `metacal.py:56` `maxsize`. -/
def gsMaxSize : ℕ := 128

open Classical in
/-- The entry of a key, and the others in their order: the lookup of `functools.lru_cache`, `metacal.py:56-57`. -/
noncomputable def gsFind (k : GSKey) : List (GSKey × ℕ) → Option ((GSKey × ℕ) × List (GSKey × ℕ))
  | [] => none
  | e :: es => if GSKey.eqv e.1 k then some (e, es) else (gsFind k es).map fun r => (r.1, e :: r.2)

/-- `metacal.py:56-59` `_cached_galsim_stuff` behind its `lru_cache`. -/
noncomputable def gsCached {W V : Type} (x : GSExt W V) (s : GSState V) (k : GSKey) : GSState V × Except PyErr ℕ :=
  match gsFind k s.entries with
  | some (e, rest) => ({ s with entries := e :: rest }, .ok e.2)
  | none =>
      match (x.eval k.wcs).bind fun w => x.impl k.img w k.xinterp with
      | .error e => (s, .error e)
      | .ok v =>
          let (s, a) := s.alloc v
          ({ s with entries := ((k, a) :: s.entries).take gsMaxSize }, .ok a)

/-- `metacal.py:38-46` `_galsim_stuff`: the address of the objects returned. -/
noncomputable def galsimStuff {W V : Type} (x : GSExt W V) (s : GSState V) (img : List (List Fl)) (wcs : W)
    (xinterp : String) : GSState V × Except PyErr ℕ :=
  if s.on then gsCached x s ⟨img, x.repr wcs, xinterp⟩
  else
    match x.impl img wcs xinterp with
    | .error e => (s, .error e)
    | .ok v => let (s, a) := s.alloc v; (s, .ok a)

/-- What the processes's code does: the two switches, the calls made by `Metacal` (`metacal.py:397-409`), and a caller
writing into an object it was given (`metacal.image`, `metacal.psf_image`). -/
inductive GSOp (W V : Type)
  | turnOn
  | turnOff
  | call (img : List (List Fl)) (wcs : W) (xinterp : String)
  | write (a : ℕ) (v : V)

/-- One operation, `metacal.py:26-59`. -/
noncomputable def gsStep {W V : Type} (x : GSExt W V) (s : GSState V) : GSOp W V → GSState V
  | .turnOn => s.turnOn
  | .turnOff => s.turnOff
  | .call img wcs xinterp => (galsimStuff x s img wcs xinterp).1
  | .write a v => { s with heap := s.heap.set a v }

/-- A history from import on, when `metacal.py:22` has run. -/
noncomputable def gsRun {W V : Type} (x : GSExt W V) (ops : List (GSOp W V)) : GSState V :=
  ops.foldl (gsStep x) GSState.init

end Ngmix
