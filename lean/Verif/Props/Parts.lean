import Verif.Spec.Parts
import Verif.Props.GaussOrder
import Verif.Props.GMixMore
import Verif.Props.GMixCopy
import Verif.Props.Moments

/-!
# Mixtures made of parts, and convolution in steps (C115)
-/

namespace Ngmix.Props

open Ngmix Ngmix.Spec Ngmix.Proof.GaussOrder

noncomputable section

/-! ### Convolution -/

theorem exMap_map {α β γ : Type} (x : Except PyErr α) (f : α → β) (g : β → γ) : (x.map f).map g = x.map fun a => g (f a) := by
  cases x <;> rfl

/-- C115.  Convolving with one psf and then with another is convolving with the first psf convolved with the second: the
same gaussians in the same order, or ZeroDivisionError for both. -/
theorem C115_steps (gm p q : List Gauss) :
    ((gmixConvolve gm p).bind fun x => gmixConvolve x q) = (gmixConvolve p q).bind fun y => gmixConvolve gm y := by
  by_cases hq : Flux q = 0
  · have e : ∀ l, gmixConvolve l q = .error .zeroDiv := fun l => (C19_fails l q).1 hq
    by_cases hp : Flux p = 0
    · rw [(C19_fails gm p).1 hp, e p]; rfl
    · obtain ⟨x, hx⟩ := (C19_fails gm p).2 hp
      rw [hx, e p]
      exact e x
  · obtain ⟨y, hy⟩ := (C19_fails p q).2 hq
    obtain ⟨-, hfl, hcen, -⟩ := C19_convolution p q y hy
    by_cases hp : Flux p = 0
    · rw [(C19_fails gm p).1 hp, hy]
      exact ((C19_fails gm y).1 (by rw [hfl, hp])).symm
    · have hP : ∃ r c, gmixGetCen p = .ok (r, c, Flux p) := by rw [gmixGetCen_eq, if_neg hp]; exact ⟨_, _, rfl⟩
      obtain ⟨r, c, hP⟩ := hP
      have hQ : ∃ r c, gmixGetCen q = .ok (r, c, Flux q) := by rw [gmixGetCen_eq, if_neg hq]; exact ⟨_, _, rfl⟩
      obtain ⟨r', c', hQ⟩ := hQ
      have hY : gmixGetCen y = .ok (r, c, Flux p) :=
        (gmixGetCen_ok y r c _).2 ⟨hcen _ _ ((gmixGetCen_ok p r c _).1 hP).1, hfl.symm⟩
      rw [hy]
      rw [convolve_eq, hQ] at hy
      simp only [Except.map, Except.ok.injEq] at hy
      subst hy
      simp only [Except.bind]
      rw [convolve_eq gm p, hP, convolve_eq gm, hY]
      simp only [Except.map]
      rw [convolve_eq, hQ]
      simp only [Except.map, Except.ok.injEq]
      rw [List.flatMap_assoc]
      congr 1
      funext o
      rw [List.map_flatMap, List.flatMap_map]
      congr 1
      funext a
      rw [List.map_map]
      congr 1
      funext b
      simp only [convG, gauss2dSet, Function.comp]
      congr 1 <;> ring

/-- C115.  The parts of an object can be convolved one by one: the convolved concatenation is the concatenation of the
convolved parts, or ZeroDivisionError for all. -/
theorem C115_convolve_parts (gm gm' psf : List Gauss) :
    gmixConvolve (gm ++ gm') psf = (gmixConvolve gm psf).bind fun x => (gmixConvolve gm' psf).map fun y => x ++ y := by
  rw [convolve_eq, convolve_eq, convolve_eq]
  rcases gmixGetCen psf with e | c
  · rfl
  · simp [Except.map, Except.bind]

/-- C115.  Convolving with a point source leaves the gaussians as they are, whatever its flux (not zero) and position. -/
theorem C115_point (gm : List Gauss) (p row col : ℝ) (hp : p ≠ 0) :
    gmixConvolve gm [gauss2dSet p row col 0 0 0] =
      .ok (gm.map fun g => gauss2dSet g.p g.row g.col g.irr g.irc g.icc) := by
  have hc : gmixGetCen [gauss2dSet p row col 0 0 0] = .ok (row, col, p) := by
    rw [gmixGetCen_ok]
    simp [Centroid, Flux, gauss2dSet, hp]
  rw [convolve_eq, hc]
  simp only [Except.map, List.map_cons, List.map_nil, ← List.map_eq_flatMap]
  congr 1
  apply List.map_congr_left
  intro g _
  simp only [convG, gauss2dSet]
  rw [show g.p * p * (1 / p) = g.p by field_simp]
  simp

theorem flatMap_swap {α β γ : Type} (a : List α) (b : List β) (f : α → β → γ) :
    (a.flatMap fun x => b.map (f x)).Perm (b.flatMap fun y => a.map fun x => f x y) := by
  induction a with
  | nil => simp
  | cons x a ih =>
    rw [List.flatMap_cons]
    exact (ih.append_left _).trans (List.map_append_flatMap_perm b (f x) fun y => a.map fun x => f x y)

/-- C115.  Two mixtures of the same flux and centre can be exchanged: each convolved with the other has the same gaussians, in
another order. -/
theorem C115_exchange (gm gm' : List Gauss) (r c : ℝ) (h : Centroid gm r c) (h' : Centroid gm' r c) (hf : Flux gm = Flux gm') :
    ∃ x y, gmixConvolve gm gm' = .ok x ∧ gmixConvolve gm' gm = .ok y ∧ x.Perm y := by
  rw [convolve_eq, convolve_eq, (gmixGetCen_ok gm r c _).2 ⟨h, rfl⟩, (gmixGetCen_ok gm' r c _).2 ⟨h', rfl⟩]
  refine ⟨_, _, rfl, rfl, ?_⟩
  refine (flatMap_swap _ _ _).trans (List.Perm.of_eq ?_)
  congr 1
  funext q
  congr 1
  funext o
  simp only [convG, gauss2dSet, hf]
  congr 1 <;> ring

/-! ### Shears -/

/-- Second moments after a shear. -/
def shearedMoms (s1 s2 a b c : ℝ) : ℝ × ℝ × ℝ :=
  let k := 1 - (s1 ^ 2 + s2 ^ 2)
  (((1 - s1) ^ 2 * a + 2 * s2 * (1 - s1) * b + s2 ^ 2 * c) / k,
   (s2 * (1 - s1) * a + (1 - s1 ^ 2 + s2 ^ 2) * b + s2 * (1 + s1) * c) / k,
   (s2 ^ 2 * a + 2 * s2 * (1 + s1) * b + (1 + s1) ^ 2 * c) / k)

theorem shearedMoms_ok (a b c s1 s2 : ℝ) (hM : PosDef2 a b c) (hs : InDisk s1 s2) :
    getShearedMoments a b c s1 s2 = .ok (shearedMoms s1 s2 a b c) := by
  obtain ⟨a', b', c', h', hmat⟩ := C10_sheared_moments_matrix a b c s1 s2 hM hs
  have hk : (1 - (s1 ^ 2 + s2 ^ 2)) ≠ 0 := by unfold InDisk at hs; linarith
  have m00 := congrFun (congrFun hmat 0) 0
  have m01 := congrFun (congrFun hmat 0) 1
  have m11 := congrFun (congrFun hmat 1) 1
  simp [momMat, shearMat, Matrix.mul_apply, Fin.sum_univ_two] at m00 m01 m11
  rw [h']
  simp only [shearedMoms, Except.ok.injEq, Prod.mk.injEq]
  refine ⟨?_, ?_, ?_⟩ <;> rw [eq_div_iff hk]
  · linear_combination m11
  · linear_combination m01
  · linear_combination m00

/-- A gaussian after a shear. -/
def shearedG (s1 s2 : ℝ) (g : Gauss) : Gauss :=
  { g with irr := (shearedMoms s1 s2 g.irr g.irc g.icc).1, irc := (shearedMoms s1 s2 g.irr g.irc g.icc).2.1,
           icc := (shearedMoms s1 s2 g.irr g.irc g.icc).2.2,
           det := (shearedMoms s1 s2 g.irr g.irc g.icc).1 * (shearedMoms s1 s2 g.irr g.irc g.icc).2.2 -
             (shearedMoms s1 s2 g.irr g.irc g.icc).2.1 * (shearedMoms s1 s2 g.irr g.irc g.icc).2.1,
           normSet := false }

theorem shearData_ok (s1 s2 : ℝ) (hs : InDisk s1 s2) (gm : List Gauss) (h : ∀ g ∈ gm, PosDef2 g.irr g.irc g.icc) :
    shearData s1 s2 gm = .ok (gm.map (shearedG s1 s2)) := by
  induction gm with
  | nil => rfl
  | cons g gm ih =>
    rw [shearData, ih fun x hx => h x (List.mem_cons_of_mem _ hx), shearGauss, shearedMoms_ok _ _ _ _ _ (h g List.mem_cons_self) hs]
    rfl

theorem posDef2_add {a b c a' b' c' : ℝ} (h : PosDef2 a b c) (h' : PosDef2 a' b' c') : PosDef2 (a + a') (b + b') (c + c') := by
  obtain ⟨h1, h2, h3⟩ := h
  obtain ⟨k1, k2, k3⟩ := h'
  refine ⟨by positivity, by positivity, ?_⟩
  have e1 : 2 * b * b' ≤ a * c' + a' * c := by
    have p1 : 0 < a * c' := by positivity
    have p2 : 0 < a' * c := by positivity
    have hb : b ^ 2 * b' ^ 2 ≤ (a * c) * (a' * c') :=
      mul_le_mul (by linarith) (by linarith) (by positivity) (by positivity)
    have hsq : (2 * b * b') ^ 2 ≤ (a * c' + a' * c) ^ 2 := by nlinarith [sq_nonneg (a * c' - a' * c)]
    exact le_trans (le_abs_self _) (abs_le_of_sq_le_sq hsq (by positivity))
  nlinarith

theorem cen_sheared (s1 s2 : ℝ) (gm : List Gauss) : gmixGetCen (gm.map (shearedG s1 s2)) = gmixGetCen gm := by
  unfold gmixGetCen
  rw [List.foldl_map]
  rfl

/-- C115.  The sheared convolution is the convolution of the sheared object with the sheared psf: the same gaussians in the
same order, or ZeroDivisionError for both (psf without flux). -/
theorem C115_sheared (gm psf : List Gauss) (s1 s2 : ℝ) (hs : InDisk s1 s2) (h : ∀ g ∈ gm, PosDef2 g.irr g.irc g.icc)
    (h' : ∀ g ∈ psf, PosDef2 g.irr g.irc g.icc) :
    ∃ gms psfs, shearData s1 s2 gm = .ok gms ∧ shearData s1 s2 psf = .ok psfs ∧
      gmixConvolve gms psfs = (gmixConvolve gm psf).bind fun x => shearData s1 s2 x := by
  refine ⟨_, _, shearData_ok s1 s2 hs gm h, shearData_ok s1 s2 hs psf h', ?_⟩
  rw [convolve_eq, convolve_eq, cen_sheared]
  rcases gmixGetCen psf with e | c
  · rfl
  · simp only [Except.map, Except.bind]
    rw [shearData_ok s1 s2 hs _ ?_]
    · rw [List.map_flatMap, List.flatMap_map]
      congr 2
      funext o
      rw [List.map_map, List.map_map]
      congr 1
      funext q
      simp only [convG, gauss2dSet, Function.comp, shearedG]
      have e : shearedMoms s1 s2 (o.irr + q.irr) (o.irc + q.irc) (o.icc + q.icc) =
          ((shearedMoms s1 s2 o.irr o.irc o.icc).1 + (shearedMoms s1 s2 q.irr q.irc q.icc).1,
           (shearedMoms s1 s2 o.irr o.irc o.icc).2.1 + (shearedMoms s1 s2 q.irr q.irc q.icc).2.1,
           (shearedMoms s1 s2 o.irr o.irc o.icc).2.2 + (shearedMoms s1 s2 q.irr q.irc q.icc).2.2) := by
        simp only [shearedMoms, Prod.mk.injEq]
        refine ⟨?_, ?_, ?_⟩ <;> ring
      rw [e]
    · intro g hg
      obtain ⟨o, ho, hg⟩ := List.mem_flatMap.1 hg
      obtain ⟨q, hq, rfl⟩ := List.mem_map.1 hg
      exact posDef2_add (h o ho) (h' q hq)

theorem shearedG_pos (s1 s2 : ℝ) (hs : InDisk s1 s2) (g : Gauss) (h : PosDef2 g.irr g.irc g.icc) :
    PosDef2 (shearedG s1 s2 g).irr (shearedG s1 s2 g).irc (shearedG s1 s2 g).icc :=
  (C10_sheared_moments_det _ _ _ s1 s2 _ _ _ h hs (shearedMoms_ok _ _ _ s1 s2 h hs)).1

theorem shearedMoms_twice (s1 s2 k a b c : ℝ) (h1 : 1 - (s1 ^ 2 + s2 ^ 2) ≠ 0) (h2 : 1 - ((k * s1) ^ 2 + (k * s2) ^ 2) ≠ 0)
    (h3 : 1 + s1 * (k * s1) + s2 * (k * s2) ≠ 0) :
    shearedMoms (k * s1) (k * s2) (shearedMoms s1 s2 a b c).1 (shearedMoms s1 s2 a b c).2.1 (shearedMoms s1 s2 a b c).2.2 =
      shearedMoms ((s1 + k * s1) / (1 + s1 * (k * s1) + s2 * (k * s2))) ((s2 + k * s2) / (1 + s1 * (k * s1) + s2 * (k * s2)))
        a b c := by
  have hk : 1 - (((s1 + k * s1) / (1 + s1 * (k * s1) + s2 * (k * s2))) ^ 2 +
      ((s2 + k * s2) / (1 + s1 * (k * s1) + s2 * (k * s2))) ^ 2) =
      (1 - (s1 ^ 2 + s2 ^ 2)) * (1 - ((k * s1) ^ 2 + (k * s2) ^ 2)) / (1 + s1 * (k * s1) + s2 * (k * s2)) ^ 2 := by
    rw [eq_div_iff (pow_ne_zero 2 h3), sub_mul, add_mul, div_pow, div_pow, div_mul_cancel₀ _ (pow_ne_zero 2 h3),
      div_mul_cancel₀ _ (pow_ne_zero 2 h3)]
    ring
  simp only [shearedMoms, hk, Prod.mk.injEq]
  clear hk
  generalize 1 - (s1 ^ 2 + s2 ^ 2) = A at h1 ⊢
  generalize 1 - ((k * s1) ^ 2 + (k * s2) ^ 2) = B at h2 ⊢
  generalize hD : 1 + s1 * (k * s1) + s2 * (k * s2) = D at h3 ⊢
  refine ⟨?_, ?_, ?_⟩ <;> field_simp <;> rw [← hD] <;> ring

/-- C115.  Two shears along the same direction are one, by the sum of the two divided by one plus their product: in particular
shearing back gives the gaussians as they were. -/
theorem C115_collinear (gm : List Gauss) (s1 s2 t1 t2 : ℝ) (hs : InDisk s1 s2) (ht : InDisk t1 t2) (hst : s1 * t2 = s2 * t1)
    (h : ∀ g ∈ gm, PosDef2 g.irr g.irc g.icc) :
    ∃ x y, shearData s1 s2 gm = .ok x ∧ shearData t1 t2 x = .ok y ∧
      shearData ((s1 + t1) / (1 + s1 * t1 + s2 * t2)) ((s2 + t2) / (1 + s1 * t1 + s2 * t2)) gm = .ok y := by
  have hs' : s1 ^ 2 + s2 ^ 2 < 1 := hs
  have ht' : t1 ^ 2 + t2 ^ 2 < 1 := ht
  have hcs : (s1 * t1 + s2 * t2) ^ 2 ≤ (s1 ^ 2 + s2 ^ 2) * (t1 ^ 2 + t2 ^ 2) := by nlinarith [sq_nonneg (s1 * t2 - s2 * t1)]
  have hlt : (s1 ^ 2 + s2 ^ 2) * (t1 ^ 2 + t2 ^ 2) < 1 := by nlinarith [sq_nonneg s1, sq_nonneg s2, sq_nonneg t1, sq_nonneg t2]
  have hden : 0 < 1 + s1 * t1 + s2 * t2 := by nlinarith [sq_nonneg (s1 * t1 + s2 * t2)]
  have hw : InDisk ((s1 + t1) / (1 + s1 * t1 + s2 * t2)) ((s2 + t2) / (1 + s1 * t1 + s2 * t2)) := by
    unfold InDisk
    rw [div_pow, div_pow, ← add_div, div_lt_one (by positivity)]
    have : (1 + s1 * t1 + s2 * t2) ^ 2 - ((s1 + t1) ^ 2 + (s2 + t2) ^ 2) =
        (1 - (s1 ^ 2 + s2 ^ 2)) * (1 - (t1 ^ 2 + t2 ^ 2)) - (s1 * t2 - s2 * t1) ^ 2 := by ring
    have hpos := mul_pos (sub_pos.2 hs') (sub_pos.2 ht')
    rw [hst, sub_self] at this
    nlinarith
  refine ⟨_, _, shearData_ok s1 s2 hs gm h, shearData_ok t1 t2 ht _ ?_, ?_⟩
  · intro g hg
    obtain ⟨x, hx, rfl⟩ := List.mem_map.1 hg
    exact shearedG_pos s1 s2 hs x (h x hx)
  · rw [shearData_ok _ _ hw gm h, List.map_map]
    congr 1
    apply List.map_congr_left
    intro g _
    have e : shearedMoms t1 t2 (shearedMoms s1 s2 g.irr g.irc g.icc).1 (shearedMoms s1 s2 g.irr g.irc g.icc).2.1
        (shearedMoms s1 s2 g.irr g.irc g.icc).2.2 =
        shearedMoms ((s1 + t1) / (1 + s1 * t1 + s2 * t2)) ((s2 + t2) / (1 + s1 * t1 + s2 * t2)) g.irr g.irc g.icc := by
      have hne : 1 - (s1 ^ 2 + s2 ^ 2) ≠ 0 := by linarith
      have hne' : 1 - (t1 ^ 2 + t2 ^ 2) ≠ 0 := by linarith
      by_cases h0 : s1 = 0 ∧ s2 = 0
      · obtain ⟨rfl, rfl⟩ := h0
        simp [shearedMoms]
      · have hn : s1 ^ 2 + s2 ^ 2 ≠ 0 := by
          intro hz
          exact h0 ⟨by nlinarith [sq_nonneg s1, sq_nonneg s2], by nlinarith [sq_nonneg s1, sq_nonneg s2]⟩
        obtain ⟨k, rfl, rfl⟩ : ∃ k, t1 = k * s1 ∧ t2 = k * s2 := by
          refine ⟨(s1 * t1 + s2 * t2) / (s1 ^ 2 + s2 ^ 2), ?_, ?_⟩
          · field_simp
            linear_combination -s2 * hst
          · field_simp
            linear_combination s1 * hst
        exact shearedMoms_twice s1 s2 k _ _ _ hne hne' hden.ne'
    simp only [Function.comp, shearedG]
    rw [e]

/-- C115.  A mixture sheared and sheared back is as it was, with its norms marked unset. -/
theorem C115_unshear (gm : List Gauss) (s1 s2 : ℝ) (hs : InDisk s1 s2) (h : ∀ g ∈ gm, PosDef2 g.irr g.irc g.icc)
    (hd : ∀ g ∈ gm, DetCurrent g) :
    ∃ x, shearData s1 s2 gm = .ok x ∧ shearData (-s1) (-s2) x = .ok (gm.map fun g => { g with normSet := false }) := by
  obtain ⟨x, y, hx, hy, hz⟩ := C115_collinear gm s1 s2 (-s1) (-s2) hs (by unfold InDisk at hs ⊢; simpa using hs) (by ring) h
  refine ⟨x, hx, ?_⟩
  rw [hy, ← hz]
  simp only [add_neg_cancel, zero_div]
  rw [shearData_ok 0 0 (by norm_num [InDisk]) gm h]
  congr 1
  apply List.map_congr_left
  intro g hg
  have := hd g hg
  unfold DetCurrent at this
  simp [shearedG, shearedMoms, ← this]

theorem sum_shear (x y z : ℝ) : ∀ gm : List Gauss,
    (gm.map fun g => (x * g.irr + y * g.irc + z * g.icc) * g.p).sum =
      x * (gm.map fun g => g.irr * g.p).sum + y * (gm.map fun g => g.irc * g.p).sum + z * (gm.map fun g => g.icc * g.p).sum := by
  intro gm
  induction gm with
  | nil => simp
  | cons g gm ih => simp only [List.map_cons, List.sum_cons, ih]; ring

theorem moms_one_centre (gm : List Gauss) (r c : ℝ) (h : ∀ g ∈ gm, g.row = r ∧ g.col = c) (hf : psum gm ≠ 0) :
    getCen gm = some (r, c) ∧ getMoms gm = some ((gm.map fun g => g.irr * g.p).sum * (1 / psum gm),
      (gm.map fun g => g.irc * g.p).sum * (1 / psum gm), (gm.map fun g => g.icc * g.p).sum * (1 / psum gm)) := by
  have e1 : (gm.map fun g => g.row * g.p).sum = r * psum gm := by
    unfold psum
    rw [← List.sum_map_mul_left]
    congr 1
    exact List.map_congr_left fun g hg => by rw [(h g hg).1]
  have e2 : (gm.map fun g => g.col * g.p).sum = c * psum gm := by
    unfold psum
    rw [← List.sum_map_mul_left]
    congr 1
    exact List.map_congr_left fun g hg => by rw [(h g hg).2]
  have hc : getCen gm = some (r, c) := by
    unfold getCen
    rw [if_neg hf, e1, e2, mul_div_assoc, mul_div_assoc, div_self hf, mul_one, mul_one]
  refine ⟨hc, ?_⟩
  unfold getMoms
  rw [hc]
  simp only [Option.map_some, Option.some.injEq, Prod.mk.injEq]
  refine ⟨?_, ?_, ?_⟩ <;> congr 2 <;> refine List.map_congr_left fun g hg => ?_ <;>
    simp only [(h g hg).1, (h g hg).2] <;> ring

/-- C115.  A sheared mixture whose gaussians have one centre keeps flux and centre, and its second moments are those of the
mixture, sheared. -/
theorem C115_sheared_moments (gm : List Gauss) (r c : ℝ) (hc : ∀ g ∈ gm, g.row = r ∧ g.col = c) (hf : Flux gm ≠ 0)
    (s1 s2 : ℝ) (hs : InDisk s1 s2) (h : ∀ g ∈ gm, PosDef2 g.irr g.irc g.icc) :
    ∃ x m, shearData s1 s2 gm = .ok x ∧ psum x = psum gm ∧ getCen x = some (r, c) ∧ getCen gm = some (r, c) ∧
      getMoms gm = some m ∧
      (PosDef2 m.1 m.2.1 m.2.2 → ∃ m', getShearedMoments m.1 m.2.1 m.2.2 s1 s2 = .ok m' ∧ getMoms x = some m') := by
  have hf' : psum gm ≠ 0 := hf
  have hp : psum (gm.map (shearedG s1 s2)) = psum gm := by
    unfold psum
    rw [List.map_map]
    rfl
  obtain ⟨k1, k2⟩ := moms_one_centre gm r c hc hf'
  obtain ⟨l1, l2⟩ := moms_one_centre (gm.map (shearedG s1 s2)) r c
    (fun g hg => by obtain ⟨x, hx, rfl⟩ := List.mem_map.1 hg; exact hc x hx) (by rw [hp]; exact hf')
  refine ⟨_, _, shearData_ok s1 s2 hs gm h, hp, l1, k1, k2, fun hM => ⟨_, shearedMoms_ok _ _ _ s1 s2 hM hs, ?_⟩⟩
  have hk : (1 - (s1 ^ 2 + s2 ^ 2)) ≠ 0 := by unfold InDisk at hs; linarith
  rw [l2, hp, List.map_map, List.map_map, List.map_map, Option.some.injEq]
  have key : ∀ (f : Gauss → ℝ) (x y z : ℝ), (∀ g, f (shearedG s1 s2 g) = (x * g.irr + y * g.irc + z * g.icc) / (1 - (s1 ^ 2 + s2 ^ 2))) →
      (gm.map ((fun g => f g * g.p) ∘ shearedG s1 s2)).sum = (x * (gm.map fun g => g.irr * g.p).sum +
        y * (gm.map fun g => g.irc * g.p).sum + z * (gm.map fun g => g.icc * g.p).sum) / (1 - (s1 ^ 2 + s2 ^ 2)) := by
    intro f x y z hfx
    rw [← sum_shear x y z gm, eq_div_iff hk, ← List.sum_map_mul_right]
    congr 1
    refine List.map_congr_left fun g _ => ?_
    simp only [Function.comp, hfx]
    rw [show (shearedG s1 s2 g).p = g.p from rfl]
    field_simp
  rw [key (fun g => g.irr) ((1 - s1) ^ 2) (2 * s2 * (1 - s1)) (s2 ^ 2) (fun g => rfl),
    key (fun g => g.irc) (s2 * (1 - s1)) (1 - s1 ^ 2 + s2 ^ 2) (s2 * (1 + s1)) (fun g => rfl),
    key (fun g => g.icc) (s2 ^ 2) (2 * s2 * (1 + s1)) ((1 + s1) ^ 2) (fun g => rfl)]
  simp only [shearedMoms, Prod.mk.injEq]
  refine ⟨?_, ?_, ?_⟩ <;> ring

/-! ### Images and sums over pixels -/

/-- The gaussian with the same six numbers and no norms stored. -/
def refreshed (g : Gauss) : Gauss := gauss2dSet g.p g.row g.col g.irr g.irc g.icc

/-- What a gaussian adds to a pixel. -/
def pixOf (fast : Bool) (g : Gauss) (v u area : ℝ) : ℝ :=
  if fast then gaussEvalFast (normed (refreshed g)) v u area else (gaussEval (normed (refreshed g)) v u area).getD 0

theorem normed_d {g : Gauss} (hu : Usable g) : (normed (refreshed g)).d =
    some ⟨g.irr / (g.irr * g.icc - g.irc * g.irc), g.irc / (g.irr * g.icc - g.irc * g.irc), g.icc / (g.irr * g.icc - g.irc * g.irc),
      1 / (2 * Real.pi * Real.sqrt (g.irr * g.icc - g.irc * g.irc)),
      g.p / (2 * Real.pi * Real.sqrt (g.irr * g.icc - g.irc * g.irc))⟩ := by
  obtain ⟨h1, h2⟩ := hu
  unfold normed gauss2dSetNorm refreshed gauss2dSet
  simp only
  rw [if_neg (not_lt.2 h1), if_neg (not_le.2 h2)]
  simp only [Option.some.injEq, Norms.mk.injEq]
  refine ⟨?_, ?_, ?_, trivial, ?_⟩ <;> ring

theorem normed_cur {g : Gauss} (hu : Usable g) (hn : NormsCurrent g) : g.d = (normed (refreshed g)).d := by
  obtain ⟨d, hd, -, h1, h2, h3, h4, h5⟩ := hn
  rw [normed_d hu, hd, ← h1, ← h2, ← h3, ← h4, ← h5]

theorem normed_pos {g : Gauss} (hu : Usable g) : (normed (refreshed g)).row = g.row ∧ (normed (refreshed g)).col = g.col := by
  obtain ⟨h1, h2⟩ := hu
  unfold normed gauss2dSetNorm refreshed gauss2dSet
  simp only
  rw [if_neg (not_lt.2 h1), if_neg (not_le.2 h2)]
  exact ⟨rfl, rfl⟩

theorem eval_of_current {g : Gauss} (hu : Usable g) (hn : NormsCurrent g) (v u area : ℝ) :
    gaussEvalFast g v u area = pixOf true g v u area ∧ gaussEval g v u area = some (pixOf false g v u area) := by
  have hd := normed_cur hu hn
  obtain ⟨hr, hc⟩ := normed_pos hu
  constructor
  · simp only [pixOf, if_true]
    unfold gaussEvalFast gaussChi2
    rw [← hd, hr, hc]
  · simp only [pixOf, Bool.false_eq_true, if_false]
    unfold gaussEval gaussChi2
    rw [← hd, hr, hc]
    obtain ⟨d, hd, -⟩ := hn
    rw [hd]
    rfl

theorem pixOf_same {g g' : Gauss} (h : SameGauss g g') (fast : Bool) (v u area : ℝ) : pixOf fast g v u area = pixOf fast g' v u area := by
  obtain ⟨h1, h2, h3, h4, h5, h6⟩ := h
  unfold pixOf refreshed
  rw [h1, h2, h3, h4, h5, h6]

theorem evalFast_sum (gm : List Gauss) (h : ∀ g ∈ gm, Usable g ∧ NormsCurrent g) (v u area : ℝ) :
    gmixEvalFast gm v u area = (gm.map fun g => pixOf true g v u area).sum := by
  have : ∀ a, gm.foldl (fun acc g => acc + gaussEvalFast g v u area) a = a + (gm.map fun g => pixOf true g v u area).sum := by
    induction gm with
    | nil => intro a; simp
    | cons g gm ih =>
      intro a
      obtain ⟨h1, h2⟩ := h g List.mem_cons_self
      rw [List.foldl_cons, ih (fun x hx => h x (List.mem_cons_of_mem _ hx)), (eval_of_current h1 h2 v u area).1, List.map_cons,
        List.sum_cons]
      ring
  unfold gmixEvalFast
  rw [this, zero_add]

theorem eval_sum (gm : List Gauss) (h : ∀ g ∈ gm, Usable g ∧ NormsCurrent g) (v u area : ℝ) :
    gmixEval gm v u area = some (gm.map fun g => pixOf false g v u area).sum := by
  have : ∀ a, gm.foldl (fun acc g => acc.bind fun a => (gaussEval g v u area).map fun b => a + b) (some a) =
      some (a + (gm.map fun g => pixOf false g v u area).sum) := by
    induction gm with
    | nil => intro a; simp
    | cons g gm ih =>
      intro a
      obtain ⟨h1, h2⟩ := h g List.mem_cons_self
      rw [List.foldl_cons, (eval_of_current h1 h2 v u area).2, Option.bind_some, Option.map_some,
        ih (fun x hx => h x (List.mem_cons_of_mem _ hx)), List.map_cons, List.sum_cons, add_assoc]
  unfold gmixEval
  rw [this, zero_add]

theorem usable_same {g g' : Gauss} (h : SameGauss g g') : Usable g ↔ Usable g' := by
  obtain ⟨-, -, -, h4, h5, h6⟩ := h
  unfold Usable
  rw [h4, h5, h6]

/-- Norms of an up-to-date mixture. -/
theorem ifNeeded_upToDate (gm : List Gauss) (h : UpToDate gm) :
    ((∀ g ∈ gm, Usable g) → ∃ gm', setNormsIfNeeded gm = (gm', .ok ()) ∧ (∀ g ∈ gm', Usable g ∧ NormsCurrent g) ∧
      List.Forall₂ SameGauss gm gm') ∧
    (¬ (∀ g ∈ gm, Usable g) → (setNormsIfNeeded gm).2 = .error .gmixRange) := by
  obtain ⟨hd, hn | hn⟩ := h
  · obtain ⟨h1, h2⟩ := ifNeeded_new gm hd hn
    refine ⟨fun hu => ?_, h2⟩
    obtain ⟨gm', e, hf⟩ := h1 hu
    refine ⟨gm', e, ?_, hf.imp fun _ _ h => h.1⟩
    intro g hg
    obtain ⟨i, hi, rfl⟩ := List.getElem_of_mem hg
    have := (List.forall₂_iff_get.mp hf).2 i (by rw [hf.length_eq]; exact hi) hi
    exact ⟨(usable_same this.1).1 (hu _ (List.getElem_mem _)), this.2.2.1⟩
  · refine ⟨fun _ => ⟨gm, ?_, fun g hg => ⟨(hn g hg).2.2, (hn g hg).2.1⟩, List.forall₂_same.2 fun _ _ => ⟨rfl, rfl, rfl, rfl, rfl, rfl⟩⟩,
      fun h => absurd (fun g hg => (hn g hg).2.2) h⟩
    rcases gm with _ | ⟨g, gm⟩
    · rfl
    · simp [setNormsIfNeeded, (hn g List.mem_cons_self).1]

theorem map_pix_same {gm gm' : List Gauss} (h : List.Forall₂ SameGauss gm gm') (fast : Bool) (v u area : ℝ) :
    (gm'.map fun g => pixOf fast g v u area) = gm.map fun g => pixOf fast g v u area := by
  induction h with
  | nil => rfl
  | cons h _ ih => rw [List.map_cons, List.map_cons, ih, pixOf_same h]

theorem render_upToDate (gm : List Gauss) (h : UpToDate gm) (coords : List Coord) (fast : Bool) :
    ((∀ g ∈ gm, Usable g) → (render gm coords (coords.map fun _ => some 0) fast).2 =
        .ok (coords.map fun c => some (gm.map fun g => pixOf fast g c.v c.u c.area).sum)) ∧
    (¬ (∀ g ∈ gm, Usable g) → (render gm coords (coords.map fun _ => some 0) fast).2 = .error .gmixRange) := by
  obtain ⟨k1, k2⟩ := ifNeeded_upToDate gm h
  constructor
  · intro hu
    obtain ⟨gm', hs, hn, hsame⟩ := k1 hu
    have hr := render_adds (fun c => if fast then some (gmixEvalFast gm' c.v c.u c.area) else gmixEval gm' c.v c.u c.area) coords []
      (coords.map fun _ => some 0) (by simp)
    simp only [List.nil_append, List.length_nil] at hr
    simp only [render, hs]
    rw [hr]
    congr 1
    apply List.ext_getElem?
    intro i
    simp only [List.getElem?_zipWith, List.getElem?_map]
    cases coords[i]? with
    | none => rfl
    | some c =>
      simp only [Option.map_some, Option.bind_some, zero_add]
      cases fast
      · simp only [Bool.false_eq_true, if_false, eval_sum gm' hn, Option.map_some, map_pix_same hsame]
      · simp only [if_true, evalFast_sum gm' hn, Option.map_some, map_pix_same hsame]
  · intro hu
    have := k2 hu
    rcases hs : setNormsIfNeeded gm with ⟨g', r⟩
    rw [hs] at this
    simp only at this
    subst this
    simp only [render, hs]

/-- Images of up-to-date mixtures. -/
theorem image_upToDate (nrow ncol : ℕ) (jac : Option Jacobian) : ∃ coords : List Coord, coords.length = nrow * ncol ∧
    ∀ (gm : List Gauss) (fast : Bool), UpToDate gm →
      ((∀ g ∈ gm, Usable g) → (gmixMakeImage gm [nrow, ncol] jac fast).2 =
        .ok (coords.map fun c => some (gm.map fun g => pixOf fast g c.v c.u c.area).sum)) ∧
      (¬ (∀ g ∈ gm, Usable g) → (gmixMakeImage gm [nrow, ncol] jac fast).2 = .error .gmixRange) := by
  obtain ⟨j, hj, hc⟩ := imageJacobian_spec nrow ncol jac
  refine ⟨makeCoords nrow ncol j, ?_, fun gm fast h => ?_⟩
  · rw [hc, List.length_map]
    simp [rowMajor]
  · have : gmixMakeImage gm [nrow, ncol] jac fast =
        render gm (makeCoords nrow ncol j) ((makeCoords nrow ncol j).map fun _ => some 0) fast := by
      simp only [gmixMakeImage]
      rw [if_neg (by omega)]
      simp only [Int.toNat_natCast, hj]
    rw [this]
    exact render_upToDate gm h _ fast

/-- C115.  The image of concatenated mixtures is the sum of their images, pixel by pixel, with the exact and with the fast
exponential; it fails with GMixRangeError if one of theirs does. -/
theorem C115_concat_image (l : List GMixObj) (h : ∀ m ∈ l, UpToDate m.data) (o : GMixObj) (ho : gmixConcat l = .ok o)
    (nrow ncol : ℕ) (jac : Option Jacobian) (fast : Bool) :
    (∀ ims : List (List ℝ), List.Forall₂ (fun m im => (gmixMakeImage m.data [nrow, ncol] jac fast).2 = .ok (im.map some)) l ims →
      ∃ im : List ℝ, (gmixMakeImage o.data [nrow, ncol] jac fast).2 = .ok (im.map some) ∧ im.length = nrow * ncol ∧
        ∀ k, im.getD k 0 = (ims.map fun i => i.getD k 0).sum) ∧
    ((∀ m ∈ l, ∃ im : List ℝ, (gmixMakeImage m.data [nrow, ncol] jac fast).2 = .ok (im.map some)) ∨
      ((∃ m ∈ l, (gmixMakeImage m.data [nrow, ncol] jac fast).2 = .error .gmixRange) ∧
        (gmixMakeImage o.data [nrow, ncol] jac fast).2 = .error .gmixRange)) := by
  obtain ⟨coords, hlen, himg⟩ := image_upToDate nrow ncol jac
  have hne : l ≠ [] := fun h0 => by rw [(C25_concat l).1.2 h0] at ho; cases ho
  obtain ⟨o', ho', -, hsame, -⟩ := (C25_concat l).2 hne
  rw [ho] at ho'
  cases ho'
  have hO : UpToDate o.data := by
    have hdat : o.data = (l.flatMap fun x => x.data).map fun g => gauss2dSet g.p g.row g.col g.irr g.irc g.icc := by
      have hfp : (l.flatMap fun x => getFullPars x.data) = getFullPars (l.flatMap fun x => x.data) := by
        simp only [getFullPars, List.flatMap_assoc]
      unfold gmixConcat at ho
      rw [if_neg (by simpa using hne), hfp] at ho
      obtain ⟨o2, e2, d2⟩ := newFull_ok (l.flatMap fun x => x.data)
      rw [e2] at ho
      cases ho
      exact d2
    rw [hdat]
    refine ⟨fun g hg => ?_, .inl fun g hg => ?_⟩ <;> obtain ⟨x, -, rfl⟩ := List.mem_map.1 hg <;> rfl
  have hUs : (∀ g ∈ o.data, Usable g) ↔ ∀ m ∈ l, ∀ g ∈ m.data, Usable g := by
    have key : ∀ {a b : List Gauss}, List.Forall₂ SameGauss a b → ((∀ g ∈ b, Usable g) ↔ ∀ g ∈ a, Usable g) := by
      intro a b hab
      induction hab with
      | nil => simp
      | cons h _ ih => rw [List.forall_mem_cons, List.forall_mem_cons, ih, usable_same h]
    rw [key hsame]
    constructor
    · intro h m hm g hg
      exact h g (List.mem_flatMap.2 ⟨m, hm, hg⟩)
    · intro h g hg
      obtain ⟨m, hm, hg⟩ := List.mem_flatMap.1 hg
      exact h m hm g hg
  have hinj : ∀ {a b : List ℝ}, a.map some = b.map some → a = b := by
    intro a b hab
    exact (List.map_injective_iff.2 (Option.some_injective ℝ)) hab
  constructor
  · intro ims hf
    have hu : ∀ m ∈ l, ∀ g ∈ m.data, Usable g := by
      intro m hm
      by_contra hc
      obtain ⟨i, hi, rfl⟩ := List.getElem_of_mem hm
      have := (List.forall₂_iff_get.mp hf).2 i hi (by rw [← hf.length_eq]; exact hi)
      simp only [List.get_eq_getElem] at this
      rw [(himg _ fast (h _ hm)).2 hc] at this
      cases this
    refine ⟨coords.map fun c => (o.data.map fun g => pixOf fast g c.v c.u c.area).sum, ?_, by simp [hlen], ?_⟩
    · rw [(himg _ fast hO).1 (hUs.2 hu), List.map_map]; rfl
    · intro k
      have hval : ∀ m ∈ l, ∀ im : List ℝ, (gmixMakeImage m.data [nrow, ncol] jac fast).2 = .ok (im.map some) →
          im = coords.map fun c => (m.data.map fun g => pixOf fast g c.v c.u c.area).sum := by
        intro m hm im him
        rw [(himg _ fast (h m hm)).1 (hu m hm)] at him
        simp only [Except.ok.injEq] at him
        apply hinj
        rw [← him, List.map_map]; rfl
      have hims : ims = l.map fun m => coords.map fun c => (m.data.map fun g => pixOf fast g c.v c.u c.area).sum := by
        clear ho hne hsame hUs hu
        induction hf with
        | nil => rfl
        | cons hm _ ih =>
          rw [List.map_cons, ← ih (fun m hm => h m (List.mem_cons_of_mem _ hm)) (fun m hm => hval m (List.mem_cons_of_mem _ hm)),
            hval _ List.mem_cons_self _ hm]
      have hsum : ∀ v u area, (o.data.map fun g => pixOf fast g v u area).sum =
          (l.map fun m => (m.data.map fun g => pixOf fast g v u area).sum).sum := by
        intro v u area
        rw [map_pix_same hsame]
        clear * -
        induction l with
        | nil => rfl
        | cons m l ih => simp [ih]
      rw [hims, List.map_map]
      by_cases hk : k < coords.length
      · simp only [List.getD_eq_getElem?_getD, List.getElem?_map, List.getElem?_eq_getElem hk, Option.map_some,
          Option.getD_some, Function.comp_def]
        exact hsum _ _ _
      · simp only [List.getD_eq_getElem?_getD, List.getElem?_map, List.getElem?_eq_none (not_lt.1 hk), Option.map_none,
          Option.getD_none, Function.comp_def]
        simp
  · by_cases hu : ∀ m ∈ l, ∀ g ∈ m.data, Usable g
    · refine .inl fun m hm => ⟨coords.map fun c => (m.data.map fun g => pixOf fast g c.v c.u c.area).sum, ?_⟩
      rw [(himg _ fast (h m hm)).1 (hu m hm), List.map_map]; rfl
    · refine .inr ⟨?_, (himg _ fast hO).2 fun h => hu (hUs.1 h)⟩
      push Not at hu
      obtain ⟨m, hm, g, hg, hb⟩ := hu
      exact ⟨m, hm, (himg _ fast (h m hm)).2 fun h => hb (h g hg)⟩

/-! ### Splitting a gaussian -/

theorem evalFast_lin {g g' : Gauss} {d d' : Norms} (hd : g.d = some d) (hd' : g'.d = some d') (v u area k : ℝ)
    (hc : gaussChi2 g d v u = gaussChi2 g' d' v u) (hp : d.pnorm = k * d'.pnorm) :
    gaussEvalFast g v u area = k * gaussEvalFast g' v u area := by
  unfold gaussEvalFast
  rw [hd, hd']
  simp only
  rw [hc]
  by_cases h : gaussChi2 g' d' v u < fastexpMaxChi2 ∧ gaussChi2 g' d' v u ≥ 0
  · rw [if_pos h, if_pos h, hp]; ring
  · rw [if_neg h, if_neg h, mul_zero]

theorem pix_lin (p row col irr irc icc v u area : ℝ) (fast : Bool) (hu : ∀ p : ℝ, Usable (gauss2dSet p row col irr irc icc)) :
    pixOf fast (gauss2dSet p row col irr irc icc) v u area = p * pixOf fast (gauss2dSet 1 row col irr irc icc) v u area := by
  have hd := fun q => normed_d (hu q)
  have hrow := fun q => (normed_pos (hu q)).1
  have hcol := fun q => (normed_pos (hu q)).2
  cases fast
  · simp only [pixOf, Bool.false_eq_true, if_false, gaussEval, gaussChi2, hd, hrow, hcol, Option.map_some, Option.getD_some]
    simp only [gauss2dSet]
    ring
  · simp only [pixOf, if_true]
    refine evalFast_lin (hd p) (hd 1) v u area p ?_ ?_
    · simp only [gaussChi2, hrow, hcol]
      rfl
    · simp only [gauss2dSet]
      ring

theorem pix_split (p p' row col irr irc icc v u area : ℝ) (fast : Bool)
    (hu : ∀ p : ℝ, Usable (gauss2dSet p row col irr irc icc)) :
    pixOf fast (gauss2dSet (p + p') row col irr irc icc) v u area =
      pixOf fast (gauss2dSet p row col irr irc icc) v u area + pixOf fast (gauss2dSet p' row col irr irc icc) v u area := by
  rw [pix_lin (p + p') _ _ _ _ _ _ _ _ _ hu, pix_lin p _ _ _ _ _ _ _ _ _ hu, pix_lin p' _ _ _ _ _ _ _ _ _ hu]
  ring

/-- C115.  Two gaussians with the same centre and covariance are the same as one with the sum of their fluxes: flux, centre, size
and shape are the same, and images, log likelihood, residuals and signal to noise sums are the same or GMixRangeError. -/
theorem C115_split (before after : List Gauss) (p p' row col irr irc icc : ℝ)
    (hn : ∀ g ∈ before ++ after, DetCurrent g ∧ g.normSet = false) (pixels : List Pixel) (start : ℕ) (fdiff : List ℝ)
    (dims : List ℤ) (jac : Option Jacobian) (fast : Bool) :
    let one := Merged before after p p' row col irr irc icc
    let two := Split before after p p' row col irr irc icc
    psum one = psum two ∧ getCen one = getCen two ∧ gmGetT one = gmGetT two ∧ gmGetE1e2T one = gmGetE1e2T two ∧
    gmGetG1g2T one = gmGetG1g2T two ∧ (getLoglike one pixels).2 = (getLoglike two pixels).2 ∧
    (fillFdiffNb one pixels start fdiff).2 = (fillFdiffNb two pixels start fdiff).2 ∧
    (modelS2nSum one pixels).2 = (modelS2nSum two pixels).2 ∧
    (gmixMakeImage one dims jac fast).2 = (gmixMakeImage two dims jac fast).2 := by
  intro one two
  have hp : psum one = psum two := by
    simp only [one, two, Merged, Split, psum, List.map_append, List.map_cons, List.sum_append, List.sum_cons, gauss2dSet]
    ring
  have hs : ∀ f : Gauss → ℝ, f (gauss2dSet (p + p') row col irr irc icc) =
      f (gauss2dSet p row col irr irc icc) + f (gauss2dSet p' row col irr irc icc) → (one.map f).sum = (two.map f).sum := by
    intro f hf
    simp only [one, two, Merged, Split, List.map_append, List.map_cons, List.sum_append, List.sum_cons, hf]
    ring
  have hc : getCen one = getCen two := by
    unfold getCen
    rw [hp, hs (fun g => g.row * g.p) (by simp only [gauss2dSet]; ring), hs (fun g => g.col * g.p) (by simp only [gauss2dSet]; ring)]
  have hm : getMoms one = getMoms two := by
    unfold getMoms
    rw [hc, hp]
    congr 1
    funext c
    rw [hs (fun g => (g.irr + (g.row - c.1) ^ 2) * g.p) (by simp only [gauss2dSet]; ring),
      hs (fun g => (g.irc + (g.row - c.1) * (g.col - c.2)) * g.p) (by simp only [gauss2dSet]; ring),
      hs (fun g => (g.icc + (g.col - c.2) ^ 2) * g.p) (by simp only [gauss2dSet]; ring)]
  have hn1 : UpToDate one := by
    refine ⟨?_, .inl ?_⟩ <;> intro g hg <;> simp only [one, Merged, List.mem_append, List.mem_cons] at hg <;>
      rcases hg with hg | rfl | hg
    · exact (hn g (by simp [hg])).1
    · rfl
    · exact (hn g (by simp [hg])).1
    · exact (hn g (by simp [hg])).2
    · rfl
    · exact (hn g (by simp [hg])).2
  have hn2 : UpToDate two := by
    refine ⟨?_, .inl ?_⟩ <;> intro g hg <;> simp only [two, Split, List.mem_append, List.mem_cons] at hg <;>
      rcases hg with hg | rfl | rfl | hg
    · exact (hn g (by simp [hg])).1
    · rfl
    · rfl
    · exact (hn g (by simp [hg])).1
    · exact (hn g (by simp [hg])).2
    · rfl
    · rfl
    · exact (hn g (by simp [hg])).2
  have hU0 : ∀ q q' : ℝ, Usable (gauss2dSet q row col irr irc icc) ↔ Usable (gauss2dSet q' row col irr irc icc) := fun _ _ => Iff.rfl
  have hU : (∀ g ∈ one, Usable g) ↔ ∀ g ∈ two, Usable g := by
    simp only [one, two, Merged, Split, List.forall_mem_append, List.forall_mem_cons]
    have := hU0 p' p
    have := hU0 (p + p') p
    tauto
  have hpix : (∀ g ∈ one, Usable g) → ∀ fast v u area, (one.map fun g => pixOf fast g v u area).sum =
      (two.map fun g => pixOf fast g v u area).sum := by
    intro hu fast v u area
    refine hs _ (pix_split p p' row col irr irc icc v u area fast fun q => (hU0 (p + p') q).1 (hu _ ?_))
    simp [one, Merged]
  have huse : (∃ l l', setNormsIfNeeded one = (l, .error .gmixRange) ∧ setNormsIfNeeded two = (l', .error .gmixRange)) ∨
      ∃ l l', setNormsIfNeeded one = (l, .ok ()) ∧ setNormsIfNeeded two = (l', .ok ()) ∧
        ∀ v u area, gmixEvalFast l v u area = gmixEvalFast l' v u area := by
    by_cases hu : ∀ g ∈ one, Usable g
    · obtain ⟨l, e, k1, k2⟩ := (ifNeeded_upToDate one hn1).1 hu
      obtain ⟨l', e', k1', k2'⟩ := (ifNeeded_upToDate two hn2).1 (hU.1 hu)
      refine .inr ⟨l, l', e, e', fun v u area => ?_⟩
      rw [evalFast_sum l k1, evalFast_sum l' k1', map_pix_same k2, map_pix_same k2', hpix hu]
    · refine .inl ⟨_, _, Prod.ext rfl ((ifNeeded_upToDate one hn1).2 hu),
        Prod.ext rfl ((ifNeeded_upToDate two hn2).2 fun h => hu (hU.2 h))⟩
  refine ⟨hp, hc, ?_, ?_, ?_, ?_⟩
  · unfold gmGetT; rw [hm]
  · unfold gmGetE1e2T; rw [hm]
  · unfold gmGetG1g2T gmGetE1e2T; rw [hm]
  have himage : (gmixMakeImage one dims jac fast).2 = (gmixMakeImage two dims jac fast).2 := by
    by_cases hd : dims.length ≠ 2 ∨ ∃ n ∈ dims, n < 0
    · match dims, hd with
      | [], _ => rfl
      | [_], _ => rfl
      | _ :: _ :: _ :: _, _ => rfl
      | [a, b], h =>
        have h : a < 0 ∨ b < 0 := by simpa using h
        simp only [gmixMakeImage]
        rw [if_pos h, if_pos h]
    · push Not at hd
      obtain ⟨hl, hd⟩ := hd
      match dims, hl, hd with
      | [a, b], _, hd =>
        obtain ⟨a, rfl⟩ := Int.eq_ofNat_of_zero_le (hd a (by simp))
        obtain ⟨b, rfl⟩ := Int.eq_ofNat_of_zero_le (hd b (by simp))
        obtain ⟨coords, -, himg⟩ := image_upToDate a b jac
        by_cases hu : ∀ g ∈ one, Usable g
        · rw [(himg one fast hn1).1 hu, (himg two fast hn2).1 (hU.1 hu)]
          simp only [hpix hu]
        · rw [(himg one fast hn1).2 hu, (himg two fast hn2).2 fun h => hu (hU.2 h)]
  unfold getLoglike fillFdiffNb modelS2nSum
  rcases huse with ⟨l, l', e, e'⟩ | ⟨l, l', e, e', hv⟩ <;> rw [e, e']
  · exact ⟨rfl, rfl, rfl, himage⟩
  · refine ⟨?_, ?_, ?_, himage⟩
    · simp only [loglikeLoop, hv]
    · simp only [fdiffLoop, hv]
    · simp only [hv]

/-! ### Concrete cases -/

/-- An object of two gaussians and two psfs: convolved in steps there are as many gaussians as products, with flux 3. -/
example : ∃ x, ((gmixConvolve [gauss2dSet 1 0 0 2 0 3, gauss2dSet 2 1 (-1) 4 1 4]
      [gauss2dSet 0.5 0.1 0 1 0 1, gauss2dSet 1 0 0.2 2 0.1 1]).bind fun y => gmixConvolve y [gauss2dSet 4 3 3 1 0 1]) = .ok x ∧
    x.length = 4 ∧ Flux x = 3 := by
  have hp : Flux [gauss2dSet 0.5 0.1 0 1 0 1, gauss2dSet 1 0 0.2 2 0.1 1] ≠ 0 := by norm_num [Flux, gauss2dSet]
  have hq : Flux [gauss2dSet 4 3 3 1 0 1] ≠ 0 := by norm_num [Flux, gauss2dSet]
  obtain ⟨y, hy⟩ := (C19_fails [gauss2dSet 1 0 0 2 0 3, gauss2dSet 2 1 (-1) 4 1 4] _).2 hp
  obtain ⟨x, hx⟩ := (C19_fails y _).2 hq
  refine ⟨x, by rw [hy]; exact hx, ?_, ?_⟩
  · rw [(C19_convolution _ _ _ hx).1, (C19_convolution _ _ _ hy).1]; rfl
  · rw [(C19_convolution _ _ _ hx).2.1, (C19_convolution _ _ _ hy).2.1]; norm_num [Flux, gauss2dSet]

/-- Different mixtures of the same flux and centre. -/
example : Centroid [gauss2dSet 1 1 0 2 0 3, gauss2dSet 1 (-1) 0 4 1 4] 0 0 ∧ Centroid [gauss2dSet 2 0 0 1 0 1] 0 0 ∧
    Flux [gauss2dSet 1 1 0 2 0 3, gauss2dSet 1 (-1) 0 4 1 4] = Flux [gauss2dSet 2 0 0 1 0 1] := by
  refine ⟨⟨?_, ?_, ?_⟩, ⟨?_, ?_, ?_⟩, ?_⟩ <;> norm_num [Flux, gauss2dSet]

/-- Two shears in one direction, and gaussians with one centre. -/
example : InDisk 0.1 (-0.2) ∧ InDisk (-0.3) 0.6 ∧ (0.1 : ℝ) * 0.6 = -0.2 * (-0.3) ∧
    (∀ g ∈ [gauss2dSet 1 5 2 2 0 3, gauss2dSet 2 5 2 4 1 4], (g.row = 5 ∧ g.col = 2) ∧ PosDef2 g.irr g.irc g.icc) ∧
    Flux [gauss2dSet 1 5 2 2 0 3, gauss2dSet 2 5 2 4 1 4] ≠ 0 := by
  refine ⟨by norm_num [InDisk], by norm_num [InDisk], by norm_num, ?_, by norm_num [Flux, gauss2dSet]⟩
  simp only [List.forall_mem_cons, gauss2dSet, PosDef2]
  norm_num

/-- Gaussians that can be sheared. -/
example : (∀ g ∈ [gauss2dSet 1 0 0 2 0 3, gauss2dSet 2 1 (-1) 4 1 4], PosDef2 g.irr g.irc g.icc) ∧ InDisk 0.1 (-0.2) := by
  constructor
  · simp only [List.forall_mem_cons, gauss2dSet, PosDef2]
    norm_num
  · norm_num [InDisk]

/-- Two mixtures that can be concatenated and drawn; their norms have not been set. -/
example : ∃ o, gmixConcat [⟨.full, 6, 1, [], [gauss2dSet 1 0 0 2 0 3]⟩, ⟨.full, 6, 1, [], [gauss2dSet 2 1 (-1) 4 1 4]⟩] = .ok o ∧
    UpToDate [gauss2dSet 1 0 0 2 0 3] ∧ UpToDate [gauss2dSet 2 1 (-1) 4 1 4] ∧
    (∀ g ∈ [gauss2dSet 1 0 0 2 0 3], Usable g) ∧ o.data.length = 2 := by
  obtain ⟨o, ho, -, -, hl, -⟩ := (C25_concat [⟨.full, 6, 1, [], [gauss2dSet 1 0 0 2 0 3]⟩,
    ⟨.full, 6, 1, [], [gauss2dSet 2 1 (-1) 4 1 4]⟩]).2 (by simp)
  refine ⟨o, ho, ⟨?_, .inl ?_⟩, ⟨?_, .inl ?_⟩, ?_, by rw [hl]; rfl⟩
  · simp [DetCurrent, gauss2dSet]
  · simp [gauss2dSet]
  · simp [DetCurrent, gauss2dSet]
  · simp [gauss2dSet]
  · simp only [List.mem_singleton, forall_eq, Usable, gauss2dSet, gmixLowDetval]
    norm_num

/-- Two gaussians that are one, beside another. -/
example : Merged [gauss2dSet 2 1 (-1) 4 1 4] [] 0.25 0.75 0 0 2 0 3 = [gauss2dSet 2 1 (-1) 4 1 4, gauss2dSet 1 0 0 2 0 3] ∧
    (Split [gauss2dSet 2 1 (-1) 4 1 4] [] 0.25 0.75 0 0 2 0 3).length = 3 ∧
    ∀ g ∈ [gauss2dSet 2 1 (-1) 4 1 4] ++ [], DetCurrent g ∧ g.normSet = false := by
  refine ⟨?_, rfl, ?_⟩
  · simp only [Merged, List.cons_append, List.nil_append]
    norm_num
  · simp [DetCurrent, gauss2dSet]

end

end Ngmix.Props
