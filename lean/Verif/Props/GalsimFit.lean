import Verif.Proof.GalsimFit
import Verif.Proof.Fitter
import Verif.Props.JointPrior

/-!
# C80: residuals of fits of galsim models in k space
-/

namespace Ngmix.Props

open Ngmix Ngmix.Spec Ngmix.Proof.GalsimFit

noncomputable section

/-- A call of a method that works on the images kept in the metadata. -/
inductive GSOp
  | fdiff (pars : List ℝ)
  | s2n (pars : List ℝ)

/-- The memory after a call. -/
def gsCall (G : GSLib) (f : GSFit) (mem : KMem) : GSOp → KMem
  | .fdiff p => (gsFdiff G f mem p).1
  | .s2n p => (calcS2nR G f mem p).1

/-- The memory after calls. -/
def gsCalls (G : GSLib) (f : GSFit) (mem : KMem) (l : List GSOp) : KMem := l.foldl (gsCall G f) mem

variable {G : GSLib}

theorem calls_ready {f : GSFit} (l : List GSOp) : ∀ mem, KReady f.kobs.flatten mem →
    KReady f.kobs.flatten (gsCalls G f mem l) := by
  induction l with
  | nil => intro mem h; exact h
  | cons a l ih =>
    intro mem h
    refine ih _ ?_
    cases a with
    | fdiff p => exact h.frame (gsFdiff_frame G f mem p h)
    | s2n p => exact h.frame (calcS2nR_frame G f mem p h)

variable {kind : GSKind} {prior : Option JointPrior} {kobs : List (List KObs)} {guess : List ℝ} {mem0 mem : KMem}
  {f : GSFit}

theorem checkGuess_iff (G : GSLib) (kind : GSKind) (guess : List ℝ) : ∀ n b, kind.lead + (b + n) ≤ guess.length →
    (checkGuess G kind guess b n = .ok () ↔ ∀ i, b ≤ i → i < b + n → ∃ gal, Galaxy G kind guess i gal) := by
  intro n
  induction n with
  | zero => intro b _; simp only [checkGuess, true_iff]; intro i h1 h2; omega
  | succ n ih =>
    intro b hl
    obtain ⟨bp, hbp⟩ := takeBand_some (n := kind.lead) (pars := guess) (b := b) (by omega)
    have hbp' : kind.bandPars guess b = .ok bp := hbp
    unfold checkGuess
    rw [hbp']
    simp only [Except.bind]
    constructor
    · intro h
      rcases hg : gsModel G kind bp with e | gal
      · rw [hg] at h; simp at h
      · rw [hg] at h
        intro i h1 h2
        by_cases hi : i = b
        · subst hi; exact ⟨gal, (galaxy_iff G hbp' gal).mp hg⟩
        · exact (ih (b + 1) (by omega)).mp h i (by omega) (by omega)
    · intro h
      obtain ⟨gal, hg⟩ := h b le_rfl (by omega)
      rw [(galaxy_iff G hbp' gal).mpr hg]
      exact (ih (b + 1) (by omega)).mpr fun i h1 h2 => h i (by omega) (by omega)

/-- C80: the fit accepts exactly the models it knows and guesses of the right length that stand for a galaxy in every
band. -/
theorem C80_construct (G : GSLib) (kind : GSKind) (prior : Option JointPrior) (kobs : List (List KObs))
    (guess : List ℝ) (mem : KMem) :
    (∃ mem' f, newGSFit G kind prior kobs guess mem = (mem', .ok f)) ↔
      (∀ name, kind = .simple name → name = "exp" ∨ name = "dev" ∨ name = "gauss") ∧
      guess.length = leadPars kind + kobs.length ∧
      ∀ b < kobs.length, ∃ gal, Galaxy G kind guess b gal := by
  have hlead : leadPars kind = kind.lead := by cases kind <;> rfl
  rw [hlead]
  have hknown : ∀ (mem' : KMem) (f : GSFit), newGSFit G kind prior kobs guess mem = (mem', .ok f) ↔
      (∀ name, kind = .simple name → name = "exp" ∨ name = "dev" ∨ name = "gauss") ∧
      guess.length = kind.lead + kobs.length ∧ checkGuess G kind guess 0 kobs.length = .ok () ∧
      f = ⟨kind, prior, kobs⟩ ∧ mem' = initImages kobs.flatten mem := by
    intro mem' f
    have main : ∀ known : Bool, (known = true ↔ ∀ name, kind = .simple name → name = "exp" ∨ name = "dev" ∨ name = "gauss") →
        ((if !known then (mem, Except.error PyErr.notImpl)
          else if guess.length ≠ (⟨kind, prior, kobs⟩ : GSFit).npars then (initImages kobs.flatten mem, .error .value)
          else (initImages kobs.flatten mem, (checkGuess G kind guess 0 kobs.length).map
            fun _ => (⟨kind, prior, kobs⟩ : GSFit))) = (mem', .ok f) ↔
        (∀ name, kind = .simple name → name = "exp" ∨ name = "dev" ∨ name = "gauss") ∧
        guess.length = kind.lead + kobs.length ∧ checkGuess G kind guess 0 kobs.length = .ok () ∧
        f = ⟨kind, prior, kobs⟩ ∧ mem' = initImages kobs.flatten mem) := by
      intro known hkn
      have hnp : (⟨kind, prior, kobs⟩ : GSFit).npars = kind.lead + kobs.length := rfl
      rw [hnp, ← hkn]
      cases known with
      | false => simp
      | true =>
        by_cases hl : guess.length = kind.lead + kobs.length
        · rcases hc : checkGuess G kind guess 0 kobs.length with e | u
          · simp [hl, Except.map]
          · simp only [hl, Except.map, Bool.not_true, Bool.false_eq_true, if_false, ne_eq, not_true_eq_false,
              Prod.mk.injEq, Except.ok.injEq, true_and]
            exact ⟨fun h => ⟨h.2.symm, h.1.symm⟩, fun h => ⟨h.2.symm, h.1.symm⟩⟩
        · simp [hl]
    refine main _ ?_
    cases kind <;> simp
  constructor
  · rintro ⟨mem', f, h⟩
    obtain ⟨h1, h2, h3, -⟩ := (hknown mem' f).mp h
    refine ⟨h1, h2, fun b hb => ?_⟩
    exact (checkGuess_iff G kind guess kobs.length 0 (by omega)).mp h3 b (by omega) (by omega)
  · rintro ⟨h1, h2, h3⟩
    exact ⟨_, _, (hknown _ _).mpr ⟨h1, h2,
      (checkGuess_iff G kind guess kobs.length 0 (by omega)).mpr fun i _ hi => h3 i (by omega), rfl, rfl⟩⟩

/-- C80: when no two observations hold the same metadata dictionary, the residuals are a function of the parameters:
whatever was evaluated before, and whether it failed, does not matter. -/
theorem C80_history (hnew : newGSFit G kind prior kobs guess mem0 = (mem, .ok f)) (ho : OwnMeta kobs)
    (l l' : List GSOp) (pars : List ℝ) :
    (gsFdiff G f (gsCalls G f mem l) pars).2 = (gsFdiff G f (gsCalls G f mem l') pars).2 := by
  obtain ⟨hr, ho'⟩ := new_ready G hnew ho
  exact gsFdiff_pure G f _ _ pars (calls_ready l _ hr) (calls_ready l' _ hr) ho'

theorem resid_core (hr : KReady f.kobs.flatten mem) (ho : OwnMeta f.kobs) (hk : ∀ k ∈ f.kobs.flatten, KSized k)
    (pars : List ℝ) (ms : List (List (List ℂ))) (hi : imgsAll G f.kind pars 0 f.kobs = .ok ms) (ds : List Fl)
    (hd : ds.length = f.nPrior)
    (hp : fillPriors f.prior pars (List.replicate f.fdiffSize (.fin 0)) =
      .ok (ds ++ (List.replicate f.fdiffSize (.fin 0)).drop f.nPrior, f.nPrior)) :
    (gsFdiff G f mem pars).2 = .ok (ds ++ (kResids ms.flatten f.kobs.flatten).map Fl.fin) := by
  obtain ⟨m1, p1, p2, p3⟩ := ((gsFdiff_value G f mem pars hr ho).2 ms hi).2 _ _ hp
  rw [p3]
  have hlen : (ds ++ (List.replicate f.fdiffSize (Fl.fin 0)).drop f.nPrior).length = f.nPrior + 2 * f.totpix := by
    simp only [List.length_append, hd, List.length_drop, List.length_replicate, GSFit.fdiffSize]
    omega
  rw [residAll_eq m1 _ _ _ _ hk p1 p2 (imgsAll_length G _ _ _ hk hi) (by rw [hlen]; exact le_rfl)]
  simp only [Except.map]
  have e1 : (ds ++ (List.replicate f.fdiffSize (Fl.fin 0)).drop f.nPrior).take f.nPrior = ds := by
    rw [← hd, List.take_left']
    rfl
  have e2 : (ds ++ (List.replicate f.fdiffSize (Fl.fin 0)).drop f.nPrior).drop
      (f.nPrior + 2 * (f.kobs.flatten.map fun k => k.kimage.grid.size).sum) = [] := by
    rw [List.drop_eq_nil_iff, hlen]
    exact le_rfl
  rw [e1, e2, List.append_nil]

/-- C80: without prior, whatever was evaluated before, the residuals are those of the model images, galaxy times psf,
band after band, observation after observation: real parts, then imaginary parts. -/
theorem C80_residuals (hnew : newGSFit G kind none kobs guess mem0 = (mem, .ok f)) (ho : OwnMeta kobs)
    (hk : ∀ k ∈ kobs.flatten, KSized k) (l : List GSOp) (pars : List ℝ) (hlen : pars.length = guess.length)
    (ms : List (List (List ℂ))) (hm : ModelImages G kind pars 0 kobs ms) :
    (gsFdiff G f (gsCalls G f mem l) pars).2 = .ok ((kResids ms.flatten kobs.flatten).map Fl.fin) := by
  obtain ⟨hr, ho'⟩ := new_ready G hnew ho
  obtain ⟨rfl, -, hg⟩ := new_parts G hnew
  have hi := (imgsAll_iff G kobs 0 ms (by rw [hlen, hg]; simp [GSFit.npars]) hk).mpr hm
  have := resid_core (G := G) (f := ⟨kind, none, kobs⟩) (calls_ready (G := G) l _ hr) ho' hk pars ms hi [] rfl rfl
  simpa using this

/-- C80: with the joint prior made for the model (simple, or of spergel type for the two profiles with a further
parameter) and a flux prior for each band, the residuals of the prior come first: minus half their sum of squares
is the log of the prior. -/
theorem C80_residuals_prior (p : JointPrior) (hnew : newGSFit G kind (some p) kobs guess mem0 = (mem, .ok f))
    (ho : OwnMeta kobs) (hk : ∀ k ∈ kobs.flatten, KSized k)
    (hs : Shaped p) (hq : ∀ q ∈ layout p, Constructed q) (hg : ConstructedG p.g) (hc : ConstructedCen p.cen)
    (hcls : p.cls = priorFor kind)
    (hfl : p.fs.length = kobs.length) (hba : UsesFdiff p.cls → ∃ s A, p.g = .ba s A)
    (l : List GSOp) (pars : List ℝ) (hlen : pars.length = guess.length)
    (ms : List (List (List ℂ))) (hm : ModelImages G kind pars 0 kobs ms)
    (L : ℝ) (hL : p.lnprob pars = .ok (.fin L)) :
    ∃ ds : List ℝ, ds.length = f.nPrior ∧ L = -(1 / 2) * (ds.map fun d => d ^ 2).sum ∧
      (gsFdiff G f (gsCalls G f mem l) pars).2 = .ok ((ds ++ kResids ms.flatten kobs.flatten).map Fl.fin) := by
  obtain ⟨hr, ho'⟩ := new_ready G hnew ho
  obtain ⟨rfl, -, hgl⟩ := new_parts G hnew
  have hi := (imgsAll_iff G kobs 0 ms (by rw [hlen, hgl]; simp [GSFit.npars]) hk).mpr hm
  obtain ⟨hc1, hc2⟩ := C42_counts p hs
  have hcount : 3 + (layout p).length = (⟨kind, some p, kobs⟩ : GSFit).nPrior ∧ 1 + (layout p).length + 3 = pars.length := by
    rw [hlen, hgl]
    cases kind <;> rw [hcls] at hc1 <;> simp only [GSFit.nPrior, GSFit.npars, GSKind.lead, priorFor] at hc1 ⊢ <;> omega
  match pars, hcount.2 with
  | c1 :: c2 :: g1 :: g2 :: rest, hcl =>
    simp only [List.length_cons] at hcl
    obtain ⟨-, -, ds, -, -, -, -, d1, d2, -, d3⟩ := C42_residuals p hs hq hg hc hba c1 c2 g1 g2 rest (by omega)
      (by rw [hc2]; omega) L hL (List.replicate (⟨kind, some p, kobs⟩ : GSFit).fdiffSize (.fin 0)) (by
        rw [List.length_replicate, hcount.1]; simp [GSFit.fdiffSize])
    refine ⟨ds, d1.trans hcount.1, d3, ?_⟩
    rw [hcount.1] at d2
    have := resid_core (G := G) (f := ⟨kind, some p, kobs⟩) (calls_ready (G := G) l _ hr) ho' hk _ ms hi (ds.map Fl.fin)
      (by rw [List.length_map, d1, hcount.1]) d2
    rw [this, List.map_append]
  | [], h | [_], h | [_, _], h | [_, _, _], h => simp at h; try omega

/-- C80: parameters for which some image cannot be made give residuals of minus infinity, as many as ever (two for each
pixel and those of the prior), and no exception, if GalSim raises only its own exceptions. -/
theorem C80_out_of_range (hG : GalsimErrs G) (hnew : newGSFit G kind prior kobs guess mem0 = (mem, .ok f))
    (ho : OwnMeta kobs) (hk : ∀ k ∈ kobs.flatten, KSized k) (l : List GSOp) (pars : List ℝ)
    (hlen : pars.length = guess.length) (hno : ¬ ∃ ms, ModelImages G kind pars 0 kobs ms) :
    (gsFdiff G f (gsCalls G f mem l) pars).2 = .ok (List.replicate f.fdiffSize .ninf) ∧
    f.fdiffSize = f.nPrior + 2 * (kobs.flatten.map fun k => k.kimage.grid.nrow * k.kimage.grid.ncol).sum := by
  obtain ⟨hr, ho'⟩ := new_ready G hnew ho
  obtain ⟨rfl, -, hgl⟩ := new_parts G hnew
  refine ⟨?_, rfl⟩
  have hle : kind.lead + (0 + kobs.length) ≤ pars.length := by rw [hlen, hgl]; simp [GSFit.npars]
  rcases hi : imgsAll G kind pars 0 kobs with e | ms
  · rw [(gsFdiff_value G ⟨kind, prior, kobs⟩ _ pars (calls_ready l _ hr) ho').1 e hi,
      if_pos (imgsAll_err G hG kobs 0 e hle hi)]
  · exact absurd ⟨ms, (imgsAll_iff G kobs 0 ms hle hk).mp hi⟩ hno

/-- C80: two observations that hold the same dictionary: the images of the first are overwritten.  Its residuals are
those of the model image of the second (with the psf of the second), with the errors of the second. -/
theorem C80_shared_metadata (k1 k2 : KObs) (hsame : k1.meta_ = k2.meta_) (hgrid : k1.kimage.grid = k2.kimage.grid)
    (h1 : KSized k1) (h2 : KSized k2)
    (hnew : newGSFit G kind none [[k1, k2]] guess mem0 = (mem, .ok f)) (pars : List ℝ)
    (hlen : pars.length = guess.length) (m1 m2 : List ℂ)
    (hm : ModelImages G kind pars 0 [[k1, k2]] [[m1, m2]]) :
    (gsFdiff G f mem pars).2 = .ok ((kResid m2 { k1 with weight := k2.weight } ++ kResid m2 k2).map Fl.fin) := by
  obtain ⟨rfl, rfl, hgl⟩ := new_parts G hnew
  have hle : kind.lead + (0 + [[k1, k2]].length) ≤ pars.length := by rw [hlen, hgl]; simp [GSFit.npars]
  have hk : ∀ k ∈ [[k1, k2]].flatten, KSized k := by
    intro k hk
    simp at hk
    rcases hk with rfl | rfl <;> assumption
  have hi := (imgsAll_iff G _ 0 _ hle hk).mpr hm
  have hl := imgsAll_length G _ _ _ hk hi
  simp only [List.flatten_cons, List.flatten_nil, List.append_nil] at hl
  obtain ⟨bp, hbp⟩ := takeBand_some (n := kind.lead) (pars := pars) (b := 0) (by simp at hle; omega)
  have hbp' : kind.bandPars pars 0 = .ok bp := hbp
  set k1' : KObs := { k1 with weight := k2.weight } with hk1'
  set memI := initImages [[k1, k2]].flatten mem0 with hmemI
  have hcell : memI k2.meta_ = ⟨k2.kimage, kIerr k2.weight⟩ := by
    simp [hmemI, initImages]
  have hr' : KReady [k1', k2] memI := by
    intro k hk
    simp only [List.mem_cons, List.not_mem_nil, or_false] at hk
    rcases hk with rfl | rfl
    · rw [show k1'.meta_ = k2.meta_ from hsame, hcell]
      exact ⟨hgrid.symm, rfl⟩
    · rw [hcell]; exact ⟨rfl, rfl⟩
  have hsz' : KSized k1' := ⟨h1.image, by rw [show k1'.weight = k2.weight from rfl]; rw [h2.wshape.1, h2.wshape.2, ← hgrid]; exact ⟨rfl, rfl⟩,
    by rw [show k1'.weight = k2.weight from rfl, h2.weight, ← hgrid], h1.psf⟩
  -- the images
  unfold imgsAll at hi
  rw [hbp'] at hi
  obtain ⟨bp', hb0, hi⟩ := exBind_ok hi
  simp only [Except.ok.injEq] at hb0
  subst hb0
  obtain ⟨m, hm', hi⟩ := exBind_ok hi
  obtain ⟨ms', -, hms⟩ := exMap_ok hi
  simp only [List.cons.injEq] at hms
  obtain ⟨rfl, -⟩ := hms
  unfold imgsBand at hm'
  obtain ⟨gal, hgal, hm'⟩ := exBind_ok hm'
  obtain ⟨x1, hx1, hm'⟩ := exBind_ok hm'
  obtain ⟨xs, hxs, hm'⟩ := exMap_ok hm'
  simp only [List.cons.injEq] at hm'
  obtain ⟨rfl, rfl⟩ := hm'
  unfold imgsBand at hxs
  obtain ⟨gal', hgal', hxs⟩ := exBind_ok hxs
  rw [hgal] at hgal'
  simp only [Except.ok.injEq] at hgal'
  subst hgal'
  obtain ⟨x2, hx2, hxs⟩ := exBind_ok hxs
  obtain ⟨ys, -, hxs⟩ := exMap_ok hxs
  simp only [List.cons.injEq] at hxs
  obtain ⟨rfl, -⟩ := hxs
  -- the memory
  have g1 : (memI k1.meta_).kmodel.grid = k1.kimage.grid := by rw [hsame, hcell]; exact hgrid.symm
  obtain ⟨a1, a2, a3, a4⟩ := drawOne_pure G gal k1 memI g1
  rcases hd1 : drawOne G gal k1 memI with ⟨memA, e | u⟩
  · rw [hd1, hx1] at a1; simp [Except.map] at a1
  rw [hd1] at a1 a2 a3 a4
  have g2 : (memA k2.meta_).kmodel.grid = k2.kimage.grid := by
    rw [(a2 _).1, hcell]
  obtain ⟨b1, b2, b3, b4⟩ := drawOne_pure G gal k2 memA g2
  rcases hd2 : drawOne G gal k2 memA with ⟨memB, e | u⟩
  · rw [hd2, hx2] at b1; simp [Except.map] at b1
  rw [hd2] at b1 b2 b3 b4
  have hfill : fillModels G kind pars [[k1, k2]] memI = (memB, .ok ()) := by
    unfold fillModels fillKAll
    rw [hbp']
    simp only [fillKBand, hgal, hd1, hd2, fillKAll, rtToRange]
  have hrB : KReady [k1', k2] memB := hr'.frame (a2.trans b2)
  have hx := b4 _ hx2
  have hB : Holds memB [k1', k2] [x2, x2] :=
    .cons (by rw [show k1'.meta_ = k2.meta_ from hsame]; exact hx) (.cons hx .nil)
  cases hl with
  | cons l1 hl =>
  cases hl with
  | cons l2 _ =>
  have hlen' : List.Forall₂ (fun k (m : List ℂ) => m.length = k.kimage.grid.size) [k1', k2] [x2, x2] :=
    .cons (by rw [l2, ← hgrid]) (.cons l2 .nil)
  have hres := residAll_eq memB [k1', k2] [x2, x2] (List.replicate (2 * (k1.kimage.grid.size + k2.kimage.grid.size)) (.fin 0)) 0
    (by
      intro k hk
      simp only [List.mem_cons, List.not_mem_nil, or_false] at hk
      rcases hk with rfl | rfl <;> assumption) hrB hB hlen' (by simp [k1'])
  have hsame' : residAll memB [k1, k2] = residAll memB [k1', k2] := rfl
  unfold gsFdiff gsFdiffTry
  dsimp only
  rw [hfill]
  simp only [fillPriors, Except.bind]
  have hfs : (⟨kind, none, [[k1, k2]]⟩ : GSFit).fdiffSize = 2 * (k1.kimage.grid.size + k2.kimage.grid.size) := by
    simp [GSFit.fdiffSize, GSFit.nPrior, GSFit.totpix]
  rw [hfs, show [[k1, k2]].flatten = [k1, k2] from rfl, hsame', hres]
  simp [Except.map, kResids, k1']

/-! ### Concrete cases -/

/-- A library of galaxies that are their flux; those of negative flux cannot be drawn. -/
def toyGal : GSLib where
  Obj := ℝ
  round _ _ _ F := .ok F
  shear o g1 g2 := open Classical in if g1 ^ 2 + g2 ^ 2 < 1 then .ok o else .error .value
  shift o _ _ := .ok o
  drawK o _ := open Classical in if o < 0 then .error .runtime else .ok fun _ => (o : ℂ)
  drawLeft _ k := k.data

/-- An observation of one pixel. -/
def toyK (w : ℝ) (addr : ℕ) : KObs where
  kimage := ⟨⟨1, 1, 1⟩, [0]⟩
  weight := ⟨1, 1, [w]⟩
  psf := none
  jacobian := ⟨0, 0, 1, 0, 0, 1, 1, 1⟩
  meta_ := addr

theorem toyK_sized (w : ℝ) (a : ℕ) : KSized (toyK w a) :=
  ⟨rfl, ⟨rfl, rfl⟩, rfl, by intro p hp; simp [toyK] at hp⟩

theorem toy_galaxy (F : ℝ) (hF : 0 ≤ F) : Galaxy toyGal (.simple "exp") [0, 0, 0.1, 0, 1, F] 0 F :=
  Galaxy.simple (G := toyGal) "exp" 0 0 0.1 0 1 F [F] 0 F F F rfl (by norm_num) rfl
    (if_pos (show (0.1:ℝ) ^ 2 + 0 ^ 2 < 1 by norm_num)) rfl

theorem toy_image (F : ℝ) (hF : 0 ≤ F) (w : ℝ) (a : ℕ) :
    ModelImage toyGal (.simple "exp") [0, 0, 0.1, 0, 1, F] 0 (toyK w a) [(F : ℂ)] :=
  ⟨F, fun _ => (F : ℂ), toy_galaxy F hF, if_neg (not_lt.mpr hF), fun _ => rfl, by intro p hp; simp [toyK] at hp⟩

theorem toy_images (F : ℝ) (hF : 0 ≤ F) (w w' : ℝ) (a a' : ℕ) :
    ModelImages toyGal (.simple "exp") [0, 0, 0.1, 0, 1, F] 0 [[toyK w a, toyK w' a']] [[[(F : ℂ)], [(F : ℂ)]]] :=
  ⟨_, [], rfl, .cons (toy_image F hF w a) (.cons (toy_image F hF w' a') .nil), rfl⟩

theorem toy_new (prior : Option JointPrior) (w w' : ℝ) (a a' : ℕ) (mem : KMem) :
    ∃ mem' f, newGSFit toyGal (.simple "exp") prior [[toyK w a, toyK w' a']] [0, 0, 0.1, 0, 1, 2] mem = (mem', .ok f) := by
  rw [C80_construct]
  refine ⟨by intro name h; cases h; exact .inl rfl, rfl, ?_⟩
  intro b hb
  have : b = 0 := by simpa using hb
  subst this
  exact ⟨(2 : ℝ), toy_galaxy 2 (by norm_num)⟩

/-- Two observations with dictionaries of their own: the residuals at any later time. -/
example (mem0 : KMem) (l : List GSOp) : ∃ mem f,
    newGSFit toyGal (.simple "exp") none [[toyK 1 0, toyK 4 1]] [0, 0, 0.1, 0, 1, 2] mem0 = (mem, .ok f) ∧
    (gsFdiff toyGal f (gsCalls toyGal f mem l) [0, 0, 0.1, 0, 1, 3]).2 = .ok ([3, 0, 6, 0].map Fl.fin) := by
  obtain ⟨mem, f, h⟩ := toy_new none 1 4 0 1 mem0
  refine ⟨mem, f, h, ?_⟩
  rw [C80_residuals h (by simp [OwnMeta, toyK]) (by
    intro k hk
    simp only [List.flatten_cons, List.flatten_nil, List.append_nil, List.mem_cons, List.not_mem_nil, or_false] at hk
    rcases hk with rfl | rfl <;> exact toyK_sized _ _) l [0, 0, 0.1, 0, 1, 3] rfl _ (toy_images 3 (by norm_num) 1 4 0 1)]
  have h4 : Real.sqrt 4 = 2 := by rw [show (4:ℝ) = 2 ^ 2 by norm_num]; exact Real.sqrt_sq (by norm_num)
  simp [kResids, kResid, toyK, invErr, h4]
  norm_num

/-- C80 (violation): two observations that share their metadata: the residuals are not those of the data. -/
theorem C80_shared_metadata_wrong (mem0 : KMem) : ∃ mem f,
    newGSFit toyGal (.simple "exp") none [[toyK 1 0, toyK 4 0]] [0, 0, 0.1, 0, 1, 2] mem0 = (mem, .ok f) ∧
    (∃ ms, ModelImages toyGal (.simple "exp") [0, 0, 0.1, 0, 1, 3] 0 [[toyK 1 0, toyK 4 0]] ms ∧
      kResids ms.flatten [toyK 1 0, toyK 4 0] = [3, 0, 6, 0]) ∧
    (gsFdiff toyGal f mem [0, 0, 0.1, 0, 1, 3]).2 = .ok ([6, 0, 6, 0].map Fl.fin) := by
  obtain ⟨mem, f, h⟩ := toy_new none 1 4 0 0 mem0
  have h4 : Real.sqrt 4 = 2 := by rw [show (4:ℝ) = 2 ^ 2 by norm_num]; exact Real.sqrt_sq (by norm_num)
  refine ⟨mem, f, h, ⟨_, toy_images 3 (by norm_num) 1 4 0 0, ?_⟩, ?_⟩
  · simp [kResids, kResid, toyK, invErr, h4]
    norm_num
  · rw [C80_shared_metadata (toyK 1 0) (toyK 4 0) rfl rfl (toyK_sized _ _) (toyK_sized _ _) h [0, 0, 0.1, 0, 1, 3] rfl _ _
      (toy_images 3 (by norm_num) 1 4 0 0)]
    simp [kResid, toyK, invErr, h4]
    norm_num

theorem toyGal_errs : GalsimErrs toyGal where
  round := by intro k x r F e h; simp [toyGal] at h
  shear := by
    intro o g1 g2 e h
    simp only [toyGal] at h
    split at h
    · cases h
    · left; simpa using h.symm
  shift := by intro o a b e h; simp [toyGal] at h
  draw := by
    intro o g e h
    simp only [toyGal] at h
    split at h
    · simpa using h.symm
    · cases h

/-- A shear of one is out of range. -/
example (mem0 : KMem) (l : List GSOp) : ∃ mem f,
    newGSFit toyGal (.simple "exp") none [[toyK 1 0, toyK 4 1]] [0, 0, 0.1, 0, 1, 2] mem0 = (mem, .ok f) ∧
    (gsFdiff toyGal f (gsCalls toyGal f mem l) [0, 0, 1, 0, 1, 3]).2 = .ok (List.replicate 4 .ninf) := by
  obtain ⟨mem, f, h⟩ := toy_new none 1 4 0 1 mem0
  refine ⟨mem, f, h, ?_⟩
  obtain ⟨h1, h2⟩ := C80_out_of_range toyGal_errs h (by simp [OwnMeta, toyK]) (by
    intro k hk
    simp only [List.flatten_cons, List.flatten_nil, List.append_nil, List.mem_cons, List.not_mem_nil, or_false] at hk
    rcases hk with rfl | rfl <;> exact toyK_sized _ _) l [0, 0, 1, 0, 1, 3] rfl (by
    rintro ⟨ms, m, ms', -, hm, -⟩
    cases hm with
    | cons hm _ =>
      obtain ⟨gal, d, hg, -⟩ := hm
      cases hg with
      | simple _ _ _ _ _ _ _ _ _ o1 o2 _ _ _ _ hs _ =>
        simp only [toyGal] at hs
        rw [if_neg (by norm_num)] at hs
        cases hs)
  rw [h1, h2, (new_parts toyGal h).1]
  rfl

end

end Ngmix.Props
