import Verif.Model.Metacal

/-!
# Model of `/repo/ngmix/metacal/convenience.py` and of `metacal_bootstrap` (`/repo/ngmix/metacal/bootstrap.py`)

`one` stands for making a Metacal object for an observation and calling `get_all` on it (`convenience.py:110-123`); it
may use and change a state `σ` (random stream, the caller's list of types, the caller's psf observations) and may raise.
Lists of observations are `ObsIn _ Unit`: the lists made here have empty metadata.
-/

namespace Ngmix

noncomputable section

variable {σ Ob O X : Type}

/-- `convenience.py:110-123` for one observation: the class is made (`mk`, which may draw random numbers, fit the psf or
raise) and `get_all` is called on the new object.  The state carries the caller's `types` argument along. -/
def metacalOne (mk : σ → MObs O X → σ × Except PyErr (Mc O X)) (step : ℝ) (st : σ × TypesArg) (o : MObs O X) :
    (σ × TypesArg) × Except PyErr (Dict (MObs O X)) :=
  match mk st.1 o with
  | (s, .error e) => ((s, st.2), .error e)
  | (s, .ok mc) => let x := getAll mc step st.2 (fun _ => none); ((s, x.2.1), x.2.2)

/-- `for key in odict: odict[key].append(todict[key])`, `convenience.py:170-171`. -/
def appendEach : Dict (List Ob) → Dict Ob → Except PyErr (Dict (List Ob))
  | [], _ => .ok []
  | (k, l) :: rest, d =>
      match d.get? k with
      | none => .error .key
      | some o => (appendEach rest d).map fun r => (k, l ++ [o]) :: r

/-- `convenience.py:176-180` `_init_obs_list_dict` and `:183-187`, `_init_mb_obs_list_dict`. -/
def initDict {β γ : Type} (d : Dict β) : Dict (List γ) := d.map fun p => (p.1, [])

/-- The loop of `convenience.py:161-173` `_make_metacal_obs_list_dict`; `none` is Python's `None`. -/
def mcListLoop (one : σ → Ob → σ × Except PyErr (Dict Ob)) :
    List Ob → σ → Option (Dict (List Ob)) → σ × Except PyErr (Option (Dict (List Ob)))
  | [], st, acc => (st, .ok acc)
  | o :: os, st, acc =>
      match one st o with
      | (st, .error e) => (st, .error e)
      | (st, .ok d) =>
          match appendEach (acc.getD (initDict d)) d with
          | .error e => (st, .error e)
          | .ok acc => mcListLoop one os st (some acc)

/-- `new_dict[key].append(odict[key])` for one key, `convenience.py:156`. -/
def appendAt (acc : Dict (List (List Ob))) (k : String) (l : List Ob) : Except PyErr (Dict (List (List Ob))) :=
  match acc.get? k with
  | none => .error .key
  | some ls => .ok (acc.set k (ls ++ [l]))

/-- `for key in odict: new_dict[key].append(odict[key])`, `convenience.py:155-156`. -/
def appendBand : Dict (List Ob) → Dict (List (List Ob)) → Except PyErr (Dict (List (List Ob)))
  | [], acc => .ok acc
  | (k, l) :: rest, acc => (appendAt acc k l).bind fun acc => appendBand rest acc

/-- The loop of `convenience.py:144-158` `_make_metacal_mb_obs_list_dict`.  An empty band gives `None`: as first band
`None.keys()` raises AttributeError, later iterating over `None` raises TypeError. -/
def mcBandLoop (one : σ → Ob → σ × Except PyErr (Dict Ob)) :
    List (List Ob) → σ → Option (Dict (List (List Ob))) → σ × Except PyErr (Option (Dict (List (List Ob))))
  | [], st, acc => (st, .ok acc)
  | l :: ls, st, acc =>
      match mcListLoop one l st none with
      | (st, .error e) => (st, .error e)
      | (st, .ok none) => (st, .error (if acc.isNone then .attribute else .type))
      | (st, .ok (some d)) =>
          match appendBand d (acc.getD (initDict d)) with
          | .error e => (st, .error e)
          | .ok acc => mcBandLoop one ls st (some acc)

/-- Values of a dictionary.  `convenience.py:144-187`. -/
def Dict.mapVals {β γ : Type} (f : β → γ) (d : Dict β) : Dict γ := d.map fun p => (p.1, f p.2)

/-- `convenience.py:98-141` `_get_all_metacal`. -/
def getAllPlain (one : σ → Ob → σ × Except PyErr (Dict Ob)) {MD : Type} (arg : ObsIn Ob MD) (st : σ) :
    σ × Except PyErr (Option (Dict (ObsIn Ob Unit))) :=
  match arg with
  | .obs o => let x := one st o; (x.1, x.2.map fun d => some (d.mapVals .obs))
  | .mb _ l =>
      let x := mcBandLoop one (l.map Prod.snd) st none
      (x.1, x.2.map fun d => d.map fun d => d.mapVals fun ls => .mb () (ls.map fun l => ((), l)))
  | .list _ l => let x := mcListLoop one l st none; (x.1, x.2.map fun d => d.map fun d => d.mapVals (.list ()))
  | .other => (st, .error .value)

/-! ### fixnoise -/

/-- `numpy.rot90(image, k=1)`: element `[i, j]` is `image[j, ncol-1-i]`.  `convenience.py:258-270`. -/
def Image.rot90 (im : Image) : Image := ⟨im.ncol, im.nrow, fun r c => im.get c (im.ncol - 1 - r)⟩

/-- `numpy.rot90(image, k=3)`: element `[i, j]` is `image[nrow-1-j, i]`.  `convenience.py:258-270`. -/
def Image.rot270 (im : Image) : Image := ⟨im.ncol, im.nrow, fun r c => im.get (im.nrow - 1 - c) r⟩

/-- `obs.set_image(np.rot90(obs.image, k=k))`, `convenience.py:264`: the shape may not change
(`observation.py:338-342`). -/
def rotateOne (k3 : Bool) (o : MObs O X) : Except PyErr (MObs O X) :=
  let im := if k3 then o.image.rot270 else o.image.rot90
  if im.nrow = o.image.nrow ∧ im.ncol = o.image.ncol then .ok { o with image := im } else .error .assertion

/-- A function that may raise applied to every observation of a list in order.  `convenience.py:258-315`. -/
def forList (f : MObs O X → Except PyErr (MObs O X)) : List (MObs O X) → Except PyErr (List (MObs O X))
  | [] => .ok []
  | o :: os => (f o).bind fun o => (forList f os).map fun os => o :: os

/-- The same band after band.  `convenience.py:258-315`. -/
def forBands (f : MObs O X → Except PyErr (MObs O X)) {MD : Type} :
    List (MD × List (MObs O X)) → Except PyErr (List (MD × List (MObs O X)))
  | [] => .ok []
  | (md, l) :: ls => (forList f l).bind fun l => (forBands f ls).map fun ls => (md, l) :: ls

/-- `convenience.py:258-270` `_rotate_obs_image_square`; anything that is not an observation is left alone. -/
def rotateAll (k3 : Bool) {MD : Type} : ObsIn (MObs O X) MD → Except PyErr (ObsIn (MObs O X) MD)
  | .obs o => (rotateOne k3 o).map .obs
  | .list md l => (forList (rotateOne k3) l).map (.list md)
  | .mb md l => (forBands (rotateOne k3) l).map (.mb md)
  | .other => .ok .other

/-- `noise_obs.image = noise_obs.noise`, `convenience.py:306`: without a noise image `self._noise` is missing
(AttributeError). -/
def noiseOne (o : MObs O X) : Except PyErr (MObs O X) :=
  match o.noise with
  | none => .error .attribute
  | some n => if n.nrow = o.image.nrow ∧ n.ncol = o.image.ncol then .ok { o with image := n } else .error .assertion

/-- `convenience.py:297-315` `_replace_image_with_noise`; an argument that is no observation cannot be iterated. -/
def replaceWithNoise {MD : Type} : ObsIn (MObs O X) MD → Except PyErr (ObsIn (MObs O X) MD)
  | .obs o => (noiseOne o).map .obs
  | .list md l => (forList noiseOne l).map (.list md)
  | .mb md l => (forBands noiseOne l).map (.mb md)
  | .other => .error .type

/-- The new weight of a pixel, `convenience.py:283-294`.  Numpy's infinity for `w = -nw` is not represented. -/
def addedWeight (w nw : ℝ) : ℝ :=
  open Classical in
  if w ≠ 0 ∧ nw ≠ 0 then 1.0 / (1.0 / w + 1.0 / nw) else w

/-- `convenience.py:273-294` `_doadd_single_obs`.  Arrays of different shape raise `ValueError` (numpy's broadcasting of
axes of length one is not represented). -/
def doAddOne (o n : MObs O X) : Except PyErr (MObs O X) :=
  if n.image.nrow = o.image.nrow ∧ n.image.ncol = o.image.ncol ∧
      n.weight.nrow = o.weight.nrow ∧ n.weight.ncol = o.weight.ncol then
    .ok { o with
      image := ⟨o.image.nrow, o.image.ncol, fun r c => o.image.get r c + n.image.get r c⟩
      weight := ⟨o.weight.nrow, o.weight.ncol, fun r c => addedWeight (o.weight.get r c) (n.weight.get r c)⟩
      orig := some (o.image, o.weight) }
  else .error .value

/-- The loop of `convenience.py:236-241`: `nmbobs[iobs]` past the end raises IndexError. -/
def doAddList : List (MObs O X) → List (MObs O X) → Except PyErr (List (MObs O X))
  | [], _ => .ok []
  | _ :: _, [] => .error .index
  | o :: os, n :: ns => (doAddOne o n).bind fun o => (doAddList os ns).map fun os => o :: os

/-- The loop of `convenience.py:244-253`. -/
def doAddBands : List (Unit × List (MObs O X)) → List (Unit × List (MObs O X)) →
    Except PyErr (List (Unit × List (MObs O X)))
  | [], _ => .ok []
  | _ :: _, [] => .error .index
  | (_, l) :: ls, (_, n) :: ns => (doAddList l n).bind fun l => (doAddBands ls ns).map fun ls => ((), l) :: ls

/-- `convenience.py:232-253`.  Both arguments come from the same kind of input; the mixed cases, which cannot be indexed
in this way, are given TypeError. -/
def doAddAny : ObsIn (MObs O X) Unit → ObsIn (MObs O X) Unit → Except PyErr (ObsIn (MObs O X) Unit)
  | .obs o, .obs n => (doAddOne o n).map .obs
  | .list _ l, .list _ n => (doAddList l n).map (.list ())
  | .mb _ l, .mb _ n => (doAddBands l n).map (.mb ())
  | .other, _ => .ok .other
  | _, _ => .error .type

/-- The loop over the types, `convenience.py:224-253`. -/
def fixLoop (nd : Dict (ObsIn (MObs O X) Unit)) :
    Dict (ObsIn (MObs O X) Unit) → Except PyErr (Dict (ObsIn (MObs O X) Unit))
  | [] => .ok []
  | (t, i) :: rest =>
      match nd.get? t with
      | none => .error .key
      | some n =>
          (rotateAll true n).bind fun n => (doAddAny i n).bind fun i => (fixLoop nd rest).map fun d => (t, i) :: d

/-- The source of noise, `convenience.py:204-208`: the noise images of the observations, or `simulate_obs` (any function
here, described by C66). -/
inductive NoiseSource (σ O X : Type)
  | images
  | simulated (f : ∀ {MD : Type}, ObsIn (MObs O X) MD → σ → σ × Except PyErr (ObsIn (MObs O X) MD))

/-- Making the noise observation.  `convenience.py:218-232`. -/
def NoiseSource.make {MD : Type} : NoiseSource σ O X → ObsIn (MObs O X) MD → σ → σ × Except PyErr (ObsIn (MObs O X) MD)
  | .images, arg, st => (st, replaceWithNoise arg)
  | .simulated f, arg, st => f arg st

/-- `convenience.py:190-255` `_get_all_metacal_fixnoise`.  Iterating over `None` raises TypeError. -/
def getAllFixnoise (one : σ → MObs O X → σ × Except PyErr (Dict (MObs O X))) (src : NoiseSource σ O X) {MD : Type}
    (arg : ObsIn (MObs O X) MD) (st : σ) : σ × Except PyErr (Dict (ObsIn (MObs O X) Unit)) :=
  match src.make arg st with
  | (st, .error e) => (st, .error e)
  | (st, .ok noise) =>
      match rotateAll false noise with
      | .error e => (st, .error e)
      | .ok noise =>
          match getAllPlain one arg st with
          | (st, .error e) => (st, .error e)
          | (st, .ok d) =>
              match getAllPlain one noise st with
              | (st, .error e) => (st, .error e)
              | (st, .ok nd) =>
                  match d, nd with
                  | some d, some nd => (st, fixLoop nd d)
                  | _, _ => (st, .error .type)

/-- `convenience.py:16-95` `get_all_metacal`. -/
def getAllMetacal (one : σ → MObs O X → σ × Except PyErr (Dict (MObs O X))) (fixnoise : Option (NoiseSource σ O X))
    {MD : Type} (arg : ObsIn (MObs O X) MD) (st : σ) : σ × Except PyErr (Option (Dict (ObsIn (MObs O X) Unit))) :=
  match fixnoise with
  | some src => let x := getAllFixnoise one src arg st; (x.1, x.2.map some)
  | none => getAllPlain one arg st

/-! ### metacal_bootstrap -/

/-- The loop of `bootstrap.py:112-116`. -/
def bootLoop {V R : Type} (boot : σ → V → σ × Except PyErr R) : Dict V → σ → σ × Except PyErr (Dict R)
  | [], st => (st, .ok [])
  | (k, o) :: rest, st =>
      match boot st o with
      | (st, .error e) => (st, .error e)
      | (st, .ok r) =>
          match bootLoop boot rest st with
          | (st, .error e) => (st, .error e)
          | (st, .ok rs) => (st, .ok ((k, r) :: rs))

/-- `metacal/bootstrap.py:63-119` `metacal_bootstrap`, called with the settings kept by `MetacalBootstrapper` (`metacal/bootstrap.py:28-35`); `boot` is `bootstrap` (C14), `mcal` is `get_all_metacal`. -/
def metacalBootstrap {V R : Type} (mcal : σ → σ × Except PyErr (Option (Dict V))) (boot : σ → V → σ × Except PyErr R)
    (st : σ) : σ × Except PyErr (Dict R × Dict V) :=
  match mcal st with
  | (st, .error e) => (st, .error e)
  | (st, .ok none) => (st, .error .attribute)
  | (st, .ok (some d)) => let x := bootLoop boot d st; (x.1, x.2.map fun r => (r, d))

end

end Ngmix
