import Verif.Spec.FitSetup
import Verif.Props.FitModel
import Verif.Props.Composite

/-!
# Which fits can be set up (C92)
-/

namespace Ngmix.Props

open Ngmix Ngmix.Spec

noncomputable section

theorem cmTsum_sizeNorm (fd Td : ℝ) : cmTsum fd Td = sizeNorm fd Td := cmTsum_eq fd Td

/-- What building the mixture of one band gives. -/
theorem make_outcome (kind : FMKind) (hk : CanFit kind) (bp : List ℝ) (hl : bp.length = bandN kind) :
    (Feasible kind bp → ∃ o, makeGmixModel bp kind.arg = .ok o ∧ ∃ o', copyGMix o = .ok o') ∧
    (¬ Feasible kind bp → makeGmixModel bp kind.arg = .error .gmixRange ∨
      makeGmixModel bp kind.arg = .error .zeroDiv) := by
  have hsimple : ∀ (name : String) (num ng : ℕ), FreshAs (.std name) (.model name) 6 ng →
      CopyAs (.std name) (.model name) 6 ng → name ≠ "bd" → name ≠ "bdf" → bp.length = 6 →
      (∀ row col g1 g2 T F, (InDisk g1 g2 → ∃ d, fillFunc (.model name) [row, col, g1, g2, T, F] = .ok d) ∧
        (¬ InDisk g1 g2 → fillFunc (.model name) [row, col, g1, g2, T, F] = .error .gmixRange)) →
      (Feasible (.std name) bp → ∃ o, makeGmixModel bp (.str name) = .ok o ∧ ∃ o', copyGMix o = .ok o') ∧
      (¬ Feasible (.std name) bp → makeGmixModel bp (.str name) = .error .gmixRange ∨
        makeGmixModel bp (.str name) = .error .zeroDiv) := by
    intro name num ng hF hC hbd hbdf h6 hfill
    match bp, h6 with
    | [row, col, g1, g2, T, F], h6 =>
      have h1 := hF [row, col, g1, g2, T, F] rfl
      have h2 := hC [row, col, g1, g2, T, F]
      simp only [FMKind.arg] at h1 h2
      constructor
      · rintro ⟨_, _, _, _, _, he, hg, -⟩
        simp only [List.cons.injEq] at he
        obtain ⟨rfl, rfl, rfl, rfl, -⟩ := he
        obtain ⟨d, hd⟩ := (hfill row col g1 g2 T F).1 hg
        rw [hd] at h1
        simp only [Except.map] at h1
        exact ⟨_, h1, _, (h2 d rfl).trans h1⟩
      · intro hn
        have hg : ¬ InDisk g1 g2 := by
          intro hg
          exact hn ⟨row, col, g1, g2, _, rfl, hg, by simp [hbd], by simp [hbdf]⟩
        rw [(hfill row col g1 g2 T F).2 hg] at h1
        left
        exact h1
  cases kind with
  | std name =>
    simp only [CanFit, List.mem_cons, List.not_mem_nil, or_false] at hk
    have hs : ∀ (fv pv : List ℝ) (row col g1 g2 T F : ℝ),
        (InDisk g1 g2 → ∃ d, fillSimple fv pv row col g1 g2 T F = .ok d) ∧
        (¬ InDisk g1 g2 → fillSimple fv pv row col g1 g2 T F = .error .gmixRange) := by
      intro fv pv row col g1 g2 T F
      constructor
      · intro hg
        unfold fillSimple
        rw [g1g2ToE1E2nb_closed hg]
        exact ⟨_, rfl⟩
      · intro hg
        unfold fillSimple
        rw [g1g2ToE1E2nb_err hg]
        rfl
    rcases hk with rfl | rfl | rfl | rfl | rfl | rfl
    · obtain ⟨hF, hC⟩ := fresh_std "gauss" 1 6 1 rfl rfl rfl rfl rfl (by simp [fillNames]) (by simp) (by simp)
      exact hsimple "gauss" 1 1 hF hC (by simp) (by simp) hl (fun _ _ _ _ _ _ => hs _ _ _ _ _ _ _ _)
    · obtain ⟨hF, hC⟩ := fresh_std "turb" 2 6 3 rfl rfl rfl rfl rfl (by simp [fillNames]) (by simp) (by simp)
      exact hsimple "turb" 2 3 hF hC (by simp) (by simp) hl (fun _ _ _ _ _ _ => hs _ _ _ _ _ _ _ _)
    · obtain ⟨hF, hC⟩ := fresh_std "exp" 3 6 6 rfl rfl rfl rfl rfl (by simp [fillNames]) (by simp) (by simp)
      exact hsimple "exp" 3 6 hF hC (by simp) (by simp) hl (fun _ _ _ _ _ _ => hs _ _ _ _ _ _ _ _)
    · obtain ⟨hF, hC⟩ := fresh_std "dev" 4 6 10 rfl rfl rfl rfl rfl (by simp [fillNames]) (by simp) (by simp)
      exact hsimple "dev" 4 10 hF hC (by simp) (by simp) hl (fun _ _ _ _ _ _ => hs _ _ _ _ _ _ _ _)
    · obtain ⟨hF, hC⟩ := fresh_std "bd" 10 8 16 rfl rfl rfl rfl rfl (by simp [fillNames]) (by simp) (by simp)
      match bp, (hl : bp.length = 8) with
      | [row, col, g1, g2, T, lT, fd, F], hl =>
        have h1 := hF [row, col, g1, g2, T, lT, fd, F] rfl
        have h2 := hC [row, col, g1, g2, T, lT, fd, F]
        simp only [FMKind.arg] at h1 h2 ⊢
        constructor
        · rintro ⟨_, _, _, _, _, he, hg, hb, -⟩
          simp only [List.cons.injEq] at he
          obtain ⟨rfl, rfl, rfl, rfl, rfl⟩ := he
          obtain ⟨_, _, _, _, he, hz⟩ := hb rfl
          simp only [List.cons.injEq] at he
          obtain ⟨rfl, rfl, rfl, -⟩ := he
          have hf : ∃ d, fillFunc (.model "bd") [row, col, g1, g2, T, lT, fd, F] = .ok d := by
            simp only [fillFunc, fillBd, getCmTfactor]
            rw [if_neg (by rw [cmTsum_sizeNorm]; exact hz), g1g2ToE1E2nb_closed hg]
            exact ⟨_, rfl⟩
          obtain ⟨d, hd⟩ := hf
          rw [hd] at h1
          simp only [Except.map] at h1
          exact ⟨_, h1, _, (h2 d rfl).trans h1⟩
        · intro hn
          have hf : fillFunc (.model "bd") [row, col, g1, g2, T, lT, fd, F] = .error .gmixRange ∨
              fillFunc (.model "bd") [row, col, g1, g2, T, lT, fd, F] = .error .zeroDiv := by
            simp only [fillFunc, fillBd, getCmTfactor]
            split_ifs with hz
            · right; rfl
            · left
              rw [cmTsum_sizeNorm] at hz
              have hg : ¬ InDisk g1 g2 := fun hg =>
                hn ⟨row, col, g1, g2, _, rfl, hg, fun _ => ⟨_, _, _, _, rfl, hz⟩, by simp⟩
              rw [g1g2ToE1E2nb_err hg]
              rfl
          rcases hf with hf | hf <;> rw [hf] at h1
          · left; exact h1
          · right; exact h1
    · obtain ⟨hF, hC⟩ := fresh_std "bdf" 6 7 16 rfl rfl rfl rfl rfl (by simp [fillNames]) (by simp) (by simp)
      match bp, (hl : bp.length = 7) with
      | [row, col, g1, g2, T, fd, F], hl =>
        have h1 := hF [row, col, g1, g2, T, fd, F] rfl
        have h2 := hC [row, col, g1, g2, T, fd, F]
        simp only [FMKind.arg] at h1 h2 ⊢
        constructor
        · rintro ⟨_, _, _, _, _, he, hg, -, hb⟩
          simp only [List.cons.injEq] at he
          obtain ⟨rfl, rfl, rfl, rfl, rfl⟩ := he
          obtain ⟨_, _, _, he, hz⟩ := hb rfl
          simp only [List.cons.injEq] at he
          obtain ⟨rfl, rfl, -⟩ := he
          have hf : ∃ d, fillFunc (.model "bdf") [row, col, g1, g2, T, fd, F] = .ok d := by
            simp only [fillFunc, fillBdf, getCmTfactor]
            rw [if_neg (by rw [cmTsum_sizeNorm]; exact hz), g1g2ToE1E2nb_closed hg]
            exact ⟨_, rfl⟩
          obtain ⟨d, hd⟩ := hf
          rw [hd] at h1
          simp only [Except.map] at h1
          exact ⟨_, h1, _, (h2 d rfl).trans h1⟩
        · intro hn
          have hf : fillFunc (.model "bdf") [row, col, g1, g2, T, fd, F] = .error .gmixRange ∨
              fillFunc (.model "bdf") [row, col, g1, g2, T, fd, F] = .error .zeroDiv := by
            simp only [fillFunc, fillBdf, getCmTfactor]
            split_ifs with hz
            · right; rfl
            · left
              rw [cmTsum_sizeNorm] at hz
              have hg : ¬ InDisk g1 g2 := fun hg =>
                hn ⟨row, col, g1, g2, _, rfl, hg, by simp, fun _ => ⟨_, _, _, rfl, hz⟩⟩
              rw [g1g2ToE1E2nb_err hg]
              rfl
          rcases hf with hf | hf <;> rw [hf] at h1
          · left; exact h1
          · right; exact h1
  | coellip k =>
    obtain ⟨hF, hC⟩ := fresh_coellip k
    simp only [bandN] at hl
    have h1 := hF bp hl
    have h2 := hC bp
    match bp, hl with
    | row :: col :: g1 :: g2 :: rest, hl =>
      constructor
      · rintro ⟨_, _, _, _, _, he, hg, -⟩
        simp only [List.cons.injEq] at he
        obtain ⟨rfl, rfl, rfl, rfl, rfl⟩ := he
        have hf : ∃ d, fillFunc .coellip (row :: col :: g1 :: g2 :: rest) = .ok d := by
          simp only [fillFunc, fillCoellip]
          rw [g1g2ToE1E2nb_closed hg]
          exact ⟨_, rfl⟩
        obtain ⟨d, hd⟩ := hf
        rw [hd] at h1
        simp only [Except.map] at h1
        exact ⟨_, h1, _, (h2 d hl).trans h1⟩
      · intro hn
        have hg : ¬ InDisk g1 g2 := fun hg => hn ⟨row, col, g1, g2, _, rfl, hg, by simp, by simp⟩
        left
        rw [h1]
        simp only [fillFunc, fillCoellip]
        rw [g1g2ToE1E2nb_err hg]
        rfl
    | [], hl => simp at hl; omega
    | [_], hl => simp at hl; omega
    | [_, _], hl => simp at hl; omega
    | [_, _, _], hl => simp at hl; omega

theorem feasible_shared (name : String) (hk : CanFit (.std name)) (shared a b : List ℝ)
    (hs : shared.length = if name = "bd" then 7 else if name = "bdf" then 6 else 5) :
    Feasible (.std name) (shared ++ a) → Feasible (.std name) (shared ++ b) := by
  rintro ⟨row, col, g1, g2, rest, he, hg, h1, h2⟩
  by_cases hbd : name = "bd"
  · subst hbd
    match shared, (hs : shared.length = 7) with
    | [s0, s1, s2, s3, s4, s5, s6], _ =>
      obtain ⟨T, lT, fd, Fs, hr, hz⟩ := h1 rfl
      simp only [List.cons_append, List.nil_append, List.cons.injEq] at he
      obtain ⟨rfl, rfl, rfl, rfl, rfl⟩ := he
      simp only [List.cons.injEq] at hr
      obtain ⟨rfl, rfl, rfl, -⟩ := hr
      exact ⟨_, _, _, _, _, rfl, hg, fun _ => ⟨_, _, _, _, rfl, hz⟩, by simp⟩
  · by_cases hbdf : name = "bdf"
    · subst hbdf
      match shared, (hs : shared.length = 6) with
      | [s0, s1, s2, s3, s4, s5], _ =>
        obtain ⟨T, fd, Fs, hr, hz⟩ := h2 rfl
        simp only [List.cons_append, List.nil_append, List.cons.injEq] at he
        obtain ⟨rfl, rfl, rfl, rfl, rfl⟩ := he
        simp only [List.cons.injEq] at hr
        obtain ⟨rfl, rfl, -⟩ := hr
        exact ⟨_, _, _, _, _, rfl, hg, by simp, fun _ => ⟨_, _, _, rfl, hz⟩⟩
    · rw [if_neg hbd, if_neg hbdf] at hs
      match shared, hs with
      | [s0, s1, s2, s3, s4], _ =>
        simp only [List.cons_append, List.nil_append, List.cons.injEq] at he
        obtain ⟨rfl, rfl, rfl, rfl, rfl⟩ := he
        exact ⟨_, _, _, _, _, rfl, hg, by simp [hbd], by simp [hbdf]⟩

theorem bandN_std (name : String) (hk : CanFit (.std name)) : getModelNpars (.str name) =
    .ok ((if name = "bd" then 7 else if name = "bdf" then 6 else 5) + 1) ∧ name ≠ "bdc" := by
  simp only [CanFit, List.mem_cons, List.not_mem_nil, or_false] at hk
  rcases hk with rfl | rfl | rfl | rfl | rfl | rfl <;> exact ⟨rfl, by simp⟩

/-- The parameters of an existing band. -/
theorem band_outcome (kind : FMKind) (hk : CanFit kind) (nband : ℕ) (pars : List ℝ)
    (hl : pars.length = guessLength kind nband) (b : ℕ) (hb : b < nband) :
    ∃ bp, kind.bandPars pars b = .ok bp ∧ bp.length = bandN kind ∧ (Feasible kind bp ↔ Feasible kind pars) := by
  cases kind with
  | coellip k => exact ⟨pars, rfl, hl, Iff.rfl⟩
  | std name =>
    obtain ⟨hn, hb'⟩ := bandN_std name hk
    simp only [guessLength] at hl
    set k := if name = "bd" then 7 else if name = "bdf" then 6 else 5 with hkdef
    have hs : (pars.take k).length = k + 1 - 1 := by rw [List.length_take]; omega
    have hs' : (pars.take k).length = k := by rw [hs]; omega
    have hf : b < (pars.drop k).length := by rw [List.length_drop]; omega
    obtain ⟨h1, h2⟩ := (C47_band_pars name (k + 1) hn hb' (pars.take k) (pars.drop k) hs b).1 hf
    rw [List.take_append_drop] at h1
    have hB : bandN (.std name) = k + 1 := by simp [bandN, hn]
    refine ⟨_, h1, by rw [hB]; exact h2, ?_⟩
    constructor
    · intro h
      have := feasible_shared name hk (pars.take k) _ (pars.drop k) hs' h
      rwa [List.take_append_drop] at this
    · intro h
      refine feasible_shared name hk (pars.take k) (pars.drop k) _ hs' ?_
      rwa [List.take_append_drop]

/-- What setting up one image gives: nothing is refused, or the psf is. -/
theorem initOne_outcome (kind : FMKind) (hk : CanFit kind) (dopsf : Bool) (bp : List ℝ) (hl : bp.length = bandN kind)
    (i : Img) :
    (¬ Feasible kind bp → initOne kind dopsf bp i = .error .gmixRange ∨ initOne kind dopsf bp i = .error .zeroDiv) ∧
    (Feasible kind bp → dopsf = false → ∃ g, initOne kind dopsf bp i = .ok g) ∧
    (Feasible kind bp → dopsf = true → psfRefusal i = none → ∃ g, initOne kind dopsf bp i = .ok g) ∧
    (Feasible kind bp → dopsf = true → ∀ e, psfRefusal i = some e → initOne kind dopsf bp i = .error e ∨
      (e = .gmixRange ∧ initOne kind dopsf bp i = .error .zeroDiv)) := by
  obtain ⟨h1, h2⟩ := make_outcome kind hk bp hl
  refine ⟨fun h => ?_, fun h hd => ?_, fun h hd hp => ?_, fun h hd e hp => ?_⟩
  · unfold initOne
    rcases h2 h with h | h <;> rw [h] <;> simp [Except.bind]
  · obtain ⟨o, ho, o', ho'⟩ := h1 h
    unfold initOne
    rw [ho]
    subst hd
    simp only [Except.bind, Bool.false_eq_true, if_false]
    rw [ho']
    exact ⟨_, rfl⟩
  · obtain ⟨o, ho, -⟩ := h1 h
    unfold initOne
    rw [ho]
    subst hd
    simp only [Except.bind, if_true]
    unfold psfRefusal at hp
    cases hq : i.psf with
    | error e => rw [hq] at hp; cases e <;> simp at hp
    | ok q =>
      rw [hq] at hp
      simp only [ite_eq_right_iff, reduceCtorEq, imp_false] at hp
      obtain ⟨cv, hcv⟩ := (C19_fails o.data q.data).2 hp
      simp only [convolveObj, hcv, Except.map]
      exact ⟨_, rfl⟩
  · obtain ⟨o, ho, -⟩ := h1 h
    unfold initOne
    rw [ho]
    subst hd
    simp only [Except.bind, if_true]
    unfold psfRefusal at hp
    cases hq : i.psf with
    | error e' => rw [hq] at hp; cases e' <;> simp_all
    | ok q =>
      rw [hq] at hp
      by_cases hf : Flux q.data = 0
      · dsimp only at hp
        rw [if_pos hf] at hp
        simp only [Option.some.injEq] at hp
        right
        simp only [convolveObj, (C19_fails o.data q.data).1 hf, Except.map]
        exact ⟨hp.symm, trivial⟩
      · simp [hf] at hp

/-- The exception of the constructor for one met while setting up. -/
def asRange : PyErr → PyErr
  | .zeroDiv => .gmixRange
  | e => e

theorem initBand_outcome (kind : FMKind) (hk : CanFit kind) (dopsf : Bool) (bp : List ℝ) (hl : bp.length = bandN kind)
    (hf : Feasible kind bp) (is : List Img) :
    (dopsf = false → ∃ g, initBand kind dopsf bp is = .ok g) ∧
    (dopsf = true → is.findSome? psfRefusal = none → ∃ g, initBand kind dopsf bp is = .ok g) ∧
    (dopsf = true → ∀ e, is.findSome? psfRefusal = some e →
      ∃ e', initBand kind dopsf bp is = .error e' ∧ asRange e' = e) := by
  induction is with
  | nil => exact ⟨fun _ => ⟨_, rfl⟩, fun _ _ => ⟨_, rfl⟩, fun _ e h => by simp at h⟩
  | cons i is ih =>
    obtain ⟨-, o2, o3, o4⟩ := initOne_outcome kind hk dopsf bp hl i
    obtain ⟨i1, i2, i3⟩ := ih
    refine ⟨fun hd => ?_, fun hd hp => ?_, fun hd e hp => ?_⟩
    · obtain ⟨g, hg⟩ := o2 hf hd
      obtain ⟨gs, hgs⟩ := i1 hd
      rw [initBand, hg]
      simp only [Except.bind, hgs, Except.map]
      exact ⟨_, rfl⟩
    · rw [List.findSome?_cons] at hp
      cases hr : psfRefusal i with
      | some e => rw [hr] at hp; simp at hp
      | none =>
        rw [hr] at hp
        obtain ⟨g, hg⟩ := o3 hf hd hr
        obtain ⟨gs, hgs⟩ := i2 hd hp
        rw [initBand, hg]
        simp only [Except.bind, hgs, Except.map]
        exact ⟨_, rfl⟩
    · rw [List.findSome?_cons] at hp
      cases hr : psfRefusal i with
      | some e0 =>
        rw [hr] at hp
        simp only [Option.some.injEq] at hp
        subst hp
        rw [initBand]
        rcases o4 hf hd e0 hr with h | ⟨rfl, h⟩
        · rw [h]
          refine ⟨e0, rfl, ?_⟩
          unfold psfRefusal at hr
          cases hq : i.psf with
          | error e' => rw [hq] at hr; cases e' <;> simp_all [asRange] <;> (subst hr; rfl)
          | ok q =>
            rw [hq] at hr
            by_cases hz : Flux q.data = 0
            · simp [hz] at hr; subst hr; rfl
            · simp [hz] at hr
        · rw [h]
          exact ⟨_, rfl, rfl⟩
      | none =>
        rw [hr] at hp
        obtain ⟨g, hg⟩ := o3 hf hd hr
        obtain ⟨e', he', ha⟩ := i3 hd e hp
        rw [initBand, hg]
        simp only [Except.bind, he', Except.map]
        exact ⟨e', rfl, ha⟩

theorem initAll_outcome (kind : FMKind) (hk : CanFit kind) (dopsf : Bool) (nband : ℕ) (pars : List ℝ)
    (hl : pars.length = guessLength kind nband) (hf : Feasible kind pars) (obs : List (List Img)) : ∀ b : ℕ,
    b + obs.length = nband →
    (dopsf = false → ∃ g, initAll kind dopsf pars b obs = .ok g) ∧
    (dopsf = true → obs.flatten.findSome? psfRefusal = none → ∃ g, initAll kind dopsf pars b obs = .ok g) ∧
    (dopsf = true → ∀ e, obs.flatten.findSome? psfRefusal = some e →
      ∃ e', initAll kind dopsf pars b obs = .error e' ∧ asRange e' = e) := by
  induction obs with
  | nil => intro b _; exact ⟨fun _ => ⟨_, rfl⟩, fun _ _ => ⟨_, rfl⟩, fun _ e h => by simp at h⟩
  | cons is obs ih =>
    intro b hb
    simp only [List.length_cons] at hb
    obtain ⟨bp, hbp, hbl, hiff⟩ := band_outcome kind hk nband pars hl b (by omega)
    obtain ⟨b1, b2, b3⟩ := initBand_outcome kind hk dopsf bp hbl (hiff.2 hf) is
    obtain ⟨i1, i2, i3⟩ := ih (b + 1) (by omega)
    rw [initAll, hbp]
    simp only [Except.bind, List.flatten_cons, List.findSome?_append]
    refine ⟨fun hd => ?_, fun hd hp => ?_, fun hd e hp => ?_⟩
    · obtain ⟨g, hg⟩ := b1 hd
      obtain ⟨gs, hgs⟩ := i1 hd
      rw [hg]
      simp only [hgs, Except.map]
      exact ⟨_, rfl⟩
    · rw [Option.or_eq_none_iff] at hp
      obtain ⟨g, hg⟩ := b2 hd hp.1
      obtain ⟨gs, hgs⟩ := i2 hd hp.2
      rw [hg]
      simp only [hgs, Except.map]
      exact ⟨_, rfl⟩
    · cases hr : is.findSome? psfRefusal with
      | some e0 =>
        rw [hr] at hp
        simp only [Option.some_or, Option.some.injEq] at hp
        subst hp
        obtain ⟨e', he', ha⟩ := b3 hd e0 hr
        rw [he']
        exact ⟨e', rfl, ha⟩
      | none =>
        rw [hr] at hp
        simp only [Option.none_or] at hp
        obtain ⟨g, hg⟩ := b2 hd hr
        obtain ⟨e', he', ha⟩ := i3 hd e hp
        rw [hg]
        simp only [he', Except.map]
        exact ⟨e', rfl, ha⟩

theorem npars_guessLength (kind : FMKind) (hk : CanFit kind) (nband : ℕ) (h0 : 0 < nband) :
    kind.npars nband = .ok (guessLength kind nband) := by
  cases kind with
  | coellip k => rfl
  | std name =>
    obtain ⟨hn, -⟩ := bandN_std name hk
    simp only [FMKind.npars, hn, Except.map, guessLength]
    congr 1
    omega

/-- The constructor is the setting up of the mixtures, with `ZeroDivisionError` turned into `GMixRangeError`. -/
theorem newFit_eq (kind : FMKind) (hk : CanFit kind) (prior : Option JointPrior) (i : Img) (is : List Img)
    (rest : List (List Img)) (guess : List ℝ) (npp : ℕ)
    (hp : kind.nPriorPars prior ((i :: is) :: rest).length = .ok npp)
    (hl : guess.length = guessLength kind ((i :: is) :: rest).length) :
    (∀ st, initAll kind i.hasPsfGmix guess 0 ((i :: is) :: rest) = .ok st →
      newFitModel kind prior ((i :: is) :: rest) guess =
        .ok (⟨kind, prior, (i :: is) :: rest, i.hasPsfGmix⟩, st)) ∧
    (∀ e, initAll kind i.hasPsfGmix guess 0 ((i :: is) :: rest) = .error e →
      newFitModel kind prior ((i :: is) :: rest) guess = .error (asRange e)) := by
  unfold newFitModel
  rw [npars_guessLength kind hk _ (by simp)]
  simp only [Except.bind, hp]
  rw [if_neg (by simpa using hl)]
  constructor
  · intro st h
    rw [h]
  · intro e h
    rw [h]
    cases e <;> rfl

/-- C92: a fit of a model that can be fitted, on observations of which the first band is not empty, with a guess of
the right length.  A guess that does not stand for a galaxy raises GMixRangeError.  Otherwise, when the first image
has no psf mixture, the fit can be set up whatever the psfs of the others; when it has, the fit can be set up exactly
if every image has a psf mixture of nonzero flux, and the first image that has not decides the exception. -/
theorem C92_setup (kind : FMKind) (hk : CanFit kind) (prior : Option JointPrior) (i : Img) (is : List Img)
    (rest : List (List Img)) (guess : List ℝ) (npp : ℕ)
    (hp : kind.nPriorPars prior ((i :: is) :: rest).length = .ok npp)
    (hl : guess.length = guessLength kind ((i :: is) :: rest).length) :
    (¬ Feasible kind guess → newFitModel kind prior ((i :: is) :: rest) guess = .error .gmixRange) ∧
    (Feasible kind guess → (∃ e, i.psf = .error e) → ∃ st, newFitModel kind prior ((i :: is) :: rest) guess =
      .ok (⟨kind, prior, (i :: is) :: rest, false⟩, st)) ∧
    (Feasible kind guess → (∃ q, i.psf = .ok q) →
      (((i :: is) :: rest).flatten.findSome? psfRefusal = none → ∃ st,
        newFitModel kind prior ((i :: is) :: rest) guess = .ok (⟨kind, prior, (i :: is) :: rest, true⟩, st)) ∧
      (∀ e, ((i :: is) :: rest).flatten.findSome? psfRefusal = some e →
        newFitModel kind prior ((i :: is) :: rest) guess = .error e)) := by
  obtain ⟨n1, n2⟩ := newFit_eq kind hk prior i is rest guess npp hp hl
  refine ⟨fun hf => ?_, fun hf hq => ?_, fun hf hq => ?_⟩
  · obtain ⟨bp, hbp, hbl, hiff⟩ := band_outcome kind hk _ guess hl 0 (by simp)
    have h0 := (initOne_outcome kind hk i.hasPsfGmix bp hbl i).1 (mt hiff.1 hf)
    have : ∃ e, initAll kind i.hasPsfGmix guess 0 ((i :: is) :: rest) = .error e ∧ asRange e = .gmixRange := by
      rw [initAll, hbp]
      simp only [Except.bind, initBand]
      rcases h0 with h | h <;> rw [h]
      · exact ⟨_, rfl, rfl⟩
      · exact ⟨_, rfl, rfl⟩
    obtain ⟨e, he, ha⟩ := this
    rw [n2 e he, ha]
  · obtain ⟨e, he⟩ := hq
    have hd : i.hasPsfGmix = false := by simp [Img.hasPsfGmix, he]
    obtain ⟨st, hst⟩ := (initAll_outcome kind hk i.hasPsfGmix _ guess hl hf ((i :: is) :: rest) 0 (by simp)).1 hd
    exact ⟨st, hd ▸ n1 st hst⟩
  · obtain ⟨q, hq⟩ := hq
    have hd : i.hasPsfGmix = true := by simp [Img.hasPsfGmix, hq]
    obtain ⟨-, a2, a3⟩ := initAll_outcome kind hk i.hasPsfGmix _ guess hl hf ((i :: is) :: rest) 0 (by simp)
    constructor
    · intro h
      obtain ⟨st, hst⟩ := a2 hd h
      exact ⟨st, hd ▸ n1 st hst⟩
    · intro e h
      obtain ⟨e', he', ha⟩ := a3 hd e h
      rw [n2 e' he', ha]

/-- C92: what is checked before the guess is used.  The models without number of parameters are refused with the
exception of the table, a guess of another length with AssertionError, observations whose first band is empty with
IndexError; several bands cannot be fitted with coelliptical gaussians; every fittable model accepts a prior. -/
theorem C92_arguments (kind : FMKind) (hk : CanFit kind) (prior : Option JointPrior) (obs : List (List Img))
    (guess : List ℝ) (h0 : obs ≠ []) :
    ((∃ n, kind.nPriorPars prior obs.length = .ok n) ↔ ∀ k, kind = .coellip k → obs.length = 1) ∧
    ((∃ k, kind = .coellip k ∧ obs.length ≠ 1) → newFitModel kind prior obs guess = .error .assertion) ∧
    (guess.length ≠ guessLength kind obs.length → newFitModel kind prior obs guess = .error .assertion) ∧
    (∀ rest, obs = [] :: rest → guess.length = guessLength kind obs.length →
      (∀ k, kind = .coellip k → obs.length = 1) → newFitModel kind prior obs guess = .error .index) := by
  have hpos : 0 < obs.length := List.length_pos_iff.2 h0
  have hiff : (∃ n, kind.nPriorPars prior obs.length = .ok n) ↔ ∀ k, kind = .coellip k → obs.length = 1 := by
    cases kind with
    | coellip k =>
      simp only [FMKind.nPriorPars, FMKind.coellip.injEq]
      by_cases h : obs.length = 1
      · simp [h]
        cases prior <;> simp
      · simp [h]
    | std name =>
      simp only [reduceCtorEq, false_imp_iff, implies_true, iff_true]
      cases prior with
      | none => exact ⟨0, rfl⟩
      | some p =>
        simp only [CanFit, List.mem_cons, List.not_mem_nil, or_false] at hk
        rcases hk with rfl | rfl | rfl | rfl | rfl | rfl <;> simp [FMKind.nPriorPars, getLmNPriorPars]
  have hco : (∃ k, kind = .coellip k ∧ obs.length ≠ 1) → newFitModel kind prior obs guess = .error .assertion := by
    rintro ⟨k, rfl, h⟩
    simp [newFitModel, FMKind.npars, FMKind.nPriorPars, Except.bind, h]
  refine ⟨hiff, hco, fun hl => ?_, ?_⟩
  · by_cases hc : ∀ k, kind = .coellip k → obs.length = 1
    · obtain ⟨n, hn⟩ := hiff.2 hc
      unfold newFitModel
      rw [npars_guessLength kind hk _ hpos, hn]
      simp only [Except.bind]
      rw [if_pos hl]
    · push Not at hc
      exact hco hc
  · rintro rest rfl hl hc
    obtain ⟨n, hn⟩ := hiff.2 hc
    unfold newFitModel
    rw [npars_guessLength kind hk _ hpos, hn]
    simp only [Except.bind]
    rw [if_neg (by simpa using hl)]

/-! ### Which parameters are in range -/

/-- A gaussian of a galaxy without negative sizes. -/
def PsdGauss (g : Gauss) : Prop := ∃ p row col h e1 e2, g = coGauss p row col h e1 e2 ∧ 0 ≤ h ∧ e1 ^ 2 + e2 ^ 2 ≤ 1

theorem ellip_le_one {g1 g2 : ℝ} (_h : InDisk g1 g2) :
    (2 * g1 / (1 + (g1 ^ 2 + g2 ^ 2))) ^ 2 + (2 * g2 / (1 + (g1 ^ 2 + g2 ^ 2))) ^ 2 ≤ 1 := by
  have hp : 0 < 1 + (g1 ^ 2 + g2 ^ 2) := by positivity
  rw [div_pow, div_pow, ← add_div, div_le_one (by positivity)]
  nlinarith [sq_nonneg (1 - (g1 ^ 2 + g2 ^ 2))]

theorem usable_sum {g q : Gauss} (hg : PsdGauss g) (hq : GoodPsf q) (p row col : ℝ) :
    Usable (gauss2dSet p row col (g.irr + q.irr) (g.irc + q.irc) (g.icc + q.icc)) := by
  obtain ⟨p0, r0, c0, h, e1, e2, rfl, hh, he⟩ := hg
  obtain ⟨q1, q2, q3, q4⟩ := hq
  simp only [Usable, coGauss, gauss2dSet, gmixLowDetval]
  have a1 : e1 ≤ 1 := by nlinarith [sq_nonneg e2]
  have a2 : -1 ≤ e1 := by nlinarith [sq_nonneg e2]
  have hdet : 0 ≤ q.irr * q.icc - q.irc * q.irc := le_trans (by norm_num) q3
  have hcross : 2 * (e2 * q.irc) ≤ (1 - e1) * q.icc + (1 + e1) * q.irr := by
    have hx : 0 ≤ (1 - e1) * q.icc := mul_nonneg (by linarith) q2
    have hy : 0 ≤ (1 + e1) * q.irr := mul_nonneg (by linarith) q1
    have hsq : (e2 * q.irc) ^ 2 ≤ ((1 - e1) * q.icc) * ((1 + e1) * q.irr) := by
      have hA : e2 ^ 2 ≤ (1 - e1) * (1 + e1) := by nlinarith
      have hB : q.irc ^ 2 ≤ q.icc * q.irr := by nlinarith
      calc (e2 * q.irc) ^ 2 = e2 ^ 2 * q.irc ^ 2 := by ring
        _ ≤ ((1 - e1) * (1 + e1)) * (q.icc * q.irr) :=
            mul_le_mul hA hB (sq_nonneg _) (mul_nonneg (by linarith) (by linarith))
        _ = _ := by ring
    generalize (1 - e1) * q.icc = X at *
    generalize (1 + e1) * q.irr = Y at *
    have : (2 * (e2 * q.irc)) ^ 2 ≤ (X + Y) ^ 2 := by nlinarith [sq_nonneg (X - Y)]
    exact abs_le_of_sq_le_sq' this (by linarith) |>.2
  constructor
  · have e : (h * (1 - e1) + q.irr) * (h * (1 + e1) + q.icc) - (h * e2 + q.irc) * (h * e2 + q.irc) =
        h ^ 2 * (1 - (e1 ^ 2 + e2 ^ 2)) + h * ((1 - e1) * q.icc + (1 + e1) * q.irr - 2 * (e2 * q.irc)) +
          (q.irr * q.icc - q.irc * q.irc) := by ring
    rw [e]
    have t1 : 0 ≤ h ^ 2 * (1 - (e1 ^ 2 + e2 ^ 2)) := mul_nonneg (sq_nonneg _) (by linarith)
    have t2 : 0 ≤ h * ((1 - e1) * q.icc + (1 + e1) * q.irr - 2 * (e2 * q.irc)) := mul_nonneg hh (by linarith)
    linarith
  · have e : h * (1 - e1) + q.irr + (h * (1 + e1) + q.icc) = 2 * h + (q.irr + q.icc) := by ring
    rw [e]
    linarith

theorem simple_psd (name : String) (fv pv : List ℝ) (hm : (name, fv, pv) ∈ simpleTables)
    (row col g1 g2 T F : ℝ) (hg : InDisk g1 g2) (hT : 0 ≤ T) (d : List Gauss)
    (h : fillSimple fv pv row col g1 g2 T F = .ok d) : ∀ g ∈ d, PsdGauss g := by
  obtain ⟨-, -, -, hf, -⟩ := C22_tables name fv pv hm
  unfold fillSimple at h
  rw [g1g2ToE1E2nb_closed hg] at h
  simp only [Except.map, Except.ok.injEq] at h
  subst h
  intro g hgm
  obtain ⟨fp, hfp, rfl⟩ := List.mem_map.1 hgm
  refine ⟨_, _, _, _, _, _, rfl, ?_, ellip_le_one hg⟩
  have := hf fp.1 (List.of_mem_zip hfp).1
  positivity

theorem composite_psd (row col g1 g2 T F fd Td : ℝ) (hg : InDisk g1 g2) (hT : 0 ≤ T) (hTd : 0 ≤ Td) :
    ∀ g ∈ fillComposite row col (2 * g1 / (1 + (g1 ^ 2 + g2 ^ 2))) (2 * g2 / (1 + (g1 ^ 2 + g2 ^ 2))) T F fd Td,
      PsdGauss g := by
  rw [composite_union]
  intro g hgm
  rcases List.mem_append.1 hgm with hgm | hgm
  · obtain ⟨fp, hfp, rfl⟩ := List.mem_map.1 hgm
    refine ⟨_, _, _, _, _, _, rfl, ?_, ellip_le_one hg⟩
    have := (C22_tables _ _ _ mem_tables_exp).2.2.2.1 fp.1 (List.of_mem_zip hfp).1
    positivity
  · obtain ⟨fp, hfp, rfl⟩ := List.mem_map.1 hgm
    refine ⟨_, _, _, _, _, _, rfl, ?_, ellip_le_one hg⟩
    have := (C22_tables _ _ _ mem_tables_dev).2.2.2.1 fp.1 (List.of_mem_zip hfp).1
    positivity

/-- The mixture of one band has no negative size. -/
theorem make_psd (kind : FMKind) (hk : CanFit kind) (bp : List ℝ) (hl : bp.length = bandN kind)
    (hf : Feasible kind bp) (hs : SizesNonneg kind bp) (o : GMixObj) (ho : makeGmixModel bp kind.arg = .ok o) :
    ∀ g ∈ o.data, PsdGauss g := by
  cases kind with
  | std name =>
    simp only [CanFit, List.mem_cons, List.not_mem_nil, or_false] at hk
    have hsimple : ∀ (ng : ℕ) (fv pv : List ℝ), FreshAs (.std name) (.model name) 6 ng → bp.length = 6 →
        (name, fv, pv) ∈ simpleTables → (∀ row col g1 g2 T F, fillFunc (.model name) [row, col, g1, g2, T, F] =
          fillSimple fv pv row col g1 g2 T F) → ∀ g ∈ o.data, PsdGauss g := by
      intro ng fv pv hF h6 hm hfill
      match bp, h6 with
      | [row, col, g1, g2, T, F], h6 =>
        have h1 := hF [row, col, g1, g2, T, F] rfl
        rw [ho, hfill] at h1
        obtain ⟨_, _, _, _, _, he, hg, -⟩ := hf
        simp only [List.cons.injEq] at he
        obtain ⟨rfl, rfl, rfl, rfl, -⟩ := he
        cases hd : fillSimple fv pv row col g1 g2 T F with
        | error e => rw [hd] at h1; simp [Except.map] at h1
        | ok d =>
          rw [hd] at h1
          simp only [Except.map, Except.ok.injEq] at h1
          subst h1
          exact simple_psd name fv pv hm row col g1 g2 T F hg (hs.1 T (by simp)) d hd
    rcases hk with rfl | rfl | rfl | rfl | rfl | rfl
    · obtain ⟨hF, -⟩ := fresh_std "gauss" 1 6 1 rfl rfl rfl rfl rfl (by simp [fillNames]) (by simp) (by simp)
      exact hsimple 1 fvalsGauss pvalsGauss hF hl (by simp [simpleTables]) (fun _ _ _ _ _ _ => rfl)
    · obtain ⟨hF, -⟩ := fresh_std "turb" 2 6 3 rfl rfl rfl rfl rfl (by simp [fillNames]) (by simp) (by simp)
      exact hsimple 3 fvalsTurb pvalsTurb hF hl (by simp [simpleTables]) (fun _ _ _ _ _ _ => rfl)
    · obtain ⟨hF, -⟩ := fresh_std "exp" 3 6 6 rfl rfl rfl rfl rfl (by simp [fillNames]) (by simp) (by simp)
      exact hsimple 6 fvalsExp pvalsExp hF hl (by simp [simpleTables]) (fun _ _ _ _ _ _ => rfl)
    · obtain ⟨hF, -⟩ := fresh_std "dev" 4 6 10 rfl rfl rfl rfl rfl (by simp [fillNames]) (by simp) (by simp)
      exact hsimple 10 fvalsDev pvalsDev hF hl (by simp [simpleTables]) (fun _ _ _ _ _ _ => rfl)
    · obtain ⟨hF, -⟩ := fresh_std "bd" 10 8 16 rfl rfl rfl rfl rfl (by simp [fillNames]) (by simp) (by simp)
      match bp, (hl : bp.length = 8) with
      | [row, col, g1, g2, T, lT, fd, F], hl =>
        have h1 := hF [row, col, g1, g2, T, lT, fd, F] rfl
        rw [ho] at h1
        obtain ⟨_, _, _, _, _, he, hg, hb, -⟩ := hf
        simp only [List.cons.injEq] at he
        obtain ⟨rfl, rfl, rfl, rfl, rfl⟩ := he
        obtain ⟨_, _, _, _, he, hz⟩ := hb rfl
        simp only [List.cons.injEq] at he
        obtain ⟨rfl, rfl, rfl, -⟩ := he
        have hT := hs.1 T (by simp)
        have hn := hs.2.1 rfl lT fd (by simp) (by simp)
        simp only [fillFunc, fillBd, getCmTfactor] at h1
        rw [cmTsum_sizeNorm, if_neg hz, g1g2ToE1E2nb_closed hg] at h1
        simp only [Except.bind, Except.map, Except.ok.injEq] at h1
        subst h1
        exact composite_psd row col g1 g2 _ F fd _ hg (by positivity) (by positivity)
    · obtain ⟨hF, -⟩ := fresh_std "bdf" 6 7 16 rfl rfl rfl rfl rfl (by simp [fillNames]) (by simp) (by simp)
      match bp, (hl : bp.length = 7) with
      | [row, col, g1, g2, T, fd, F], hl =>
        have h1 := hF [row, col, g1, g2, T, fd, F] rfl
        rw [ho] at h1
        obtain ⟨_, _, _, _, _, he, hg, -, hb⟩ := hf
        simp only [List.cons.injEq] at he
        obtain ⟨rfl, rfl, rfl, rfl, rfl⟩ := he
        obtain ⟨_, _, _, he, hz⟩ := hb rfl
        simp only [List.cons.injEq] at he
        obtain ⟨rfl, rfl, -⟩ := he
        have hT := hs.1 T (by simp)
        have hn := hs.2.2 rfl fd (by simp)
        simp only [fillFunc, fillBdf, getCmTfactor] at h1
        rw [cmTsum_sizeNorm, if_neg hz, g1g2ToE1E2nb_closed hg] at h1
        simp only [Except.bind, Except.map, Except.ok.injEq] at h1
        subst h1
        exact composite_psd row col g1 g2 _ F fd _ hg (by positivity) (by positivity)
  | coellip k =>
    obtain ⟨hF, -⟩ := fresh_coellip k
    simp only [bandN] at hl
    have h1 := hF bp hl
    rw [ho] at h1
    obtain ⟨row, col, g1, g2, rest, rfl, hg, -⟩ := hf
    simp only [fillFunc, fillCoellip] at h1
    rw [g1g2ToE1E2nb_closed hg] at h1
    simp only [Except.map, Except.ok.injEq] at h1
    subst h1
    simp only [List.length_cons] at hl
    have hk' : rest.length / 2 = k := by omega
    simp only [SizesNonneg, List.drop_succ_cons, List.drop_zero] at hs
    intro g hgm
    obtain ⟨tf, htf, rfl⟩ := List.mem_map.1 hgm
    refine ⟨_, _, _, _, _, _, rfl, ?_, ellip_le_one hg⟩
    have := hs tf.1 (by rw [← hk']; exact (List.of_mem_zip htf).1)
    positivity

theorem sizes_band (kind : FMKind) (hk : CanFit kind) (nband : ℕ) (pars bp : List ℝ)
    (hl : pars.length = guessLength kind nband) (b : ℕ) (hb : b < nband) (hbp : kind.bandPars pars b = .ok bp)
    (hs : SizesNonneg kind pars) : SizesNonneg kind bp := by
  cases kind with
  | coellip k =>
    simp only [FMKind.bandPars, Except.ok.injEq] at hbp
    exact hbp ▸ hs
  | std name =>
    obtain ⟨hn, hb'⟩ := bandN_std name hk
    simp only [guessLength] at hl
    set k := if name = "bd" then 7 else if name = "bdf" then 6 else 5 with hkdef
    have hs1 : (pars.take k).length = k + 1 - 1 := by rw [List.length_take]; omega
    have hf : b < (pars.drop k).length := by rw [List.length_drop]; omega
    obtain ⟨h1, -⟩ := (C47_band_pars name (k + 1) hn hb' (pars.take k) (pars.drop k) hs1 b).1 hf
    rw [List.take_append_drop] at h1
    simp only [FMKind.bandPars] at hbp
    rw [h1, Except.ok.injEq] at hbp
    subst hbp
    have hget : ∀ j, j < k → (pars.take k ++ [(pars.drop k)[b]])[j]? = pars[j]? := by
      intro j hj
      rw [List.getElem?_append_left (by omega), List.getElem?_take_of_lt hj]
    have hk5 : 5 ≤ k := by rw [hkdef]; split_ifs <;> omega
    refine ⟨?_, fun hbd => ?_, fun hbdf => ?_⟩
    · rw [hget 4 (by omega)]; exact hs.1
    · have : k = 7 := by rw [hkdef, if_pos hbd]
      rw [hget 5 (by omega), hget 6 (by omega)]
      exact hs.2.1 hbd
    · have : k = 6 := by rw [hkdef, if_neg (by rw [hbdf]; simp), if_pos hbdf]
      rw [hget 5 (by omega)]
      exact hs.2.2 hbdf

theorem ready_of_usable (d : List Gauss) (hd : ∀ g ∈ d, DetCurrent g) (hn : ∀ g ∈ d, g.normSet = false)
    (hu : ∀ g ∈ d, Usable g) : ∃ d', ready d = .ok d' := by
  obtain ⟨h1, -⟩ := (C20_set_norms d hd).1 hu
  unfold ready setNormsIfNeeded
  match d, hn, h1 with
  | [], _, _ => exact ⟨_, rfl⟩
  | g :: d, hn, h1 =>
    have := hn g List.mem_cons_self
    simp only [this]
    cases hr : gmixSetNorms (g :: d) with
    | mk a r =>
      rw [hr] at h1
      simp only at h1
      subst h1
      simp

/-- C92: parameters with negative fluxes, or any centre, are in range: what is out of range is a shape outside the
unit disk, or sizes that cannot be normalised.  When the psfs used are positive definite, every galaxy with a shape
inside the disk and no negative size is in range for every image. -/
theorem C92_in_range (kind : FMKind) (hk : CanFit kind) (prior : Option JointPrior) (obs : List (List Img))
    (guess : List ℝ) (fm : FitModel) (st : FMState) (h : newFitModel kind prior obs guess = .ok (fm, st))
    (pars : List ℝ) (hpars : pars.length = guess.length) :
    ((∃ D, IsModel fm pars D) → Feasible kind pars) ∧
    (Feasible kind pars → SizesNonneg kind pars →
      (∀ i ∈ obs.flatten, ∃ q, i.psf = .ok q ∧ Flux q.data ≠ 0 ∧ ∀ g ∈ q.data, GoodPsf g) →
      ∃ D, IsModel fm pars D) := by
  obtain ⟨rfl, -, rfl, ⟨i, is, r, hobs, hd⟩, -, hlen, -⟩ := new_shape h
  have hne : 0 < fm.obs.length := by rw [hobs]; simp
  have hl : pars.length = guessLength fm.kind fm.obs.length := by
    rw [npars_guessLength fm.kind hk _ hne, Except.ok.injEq] at hlen
    omega
  constructor
  · rintro ⟨D, hD1, hD2⟩
    obtain ⟨ds, hds⟩ : ∃ ds, D[0]? = some ds := by
      rw [hobs, List.length_cons] at hD1
      match D, hD1 with
      | d :: D, _ => exact ⟨d, rfl⟩
    obtain ⟨bp, hbp, hall⟩ := hD2 0 (i :: is) ds (by rw [hobs]; rfl) hds
    obtain ⟨bp', hbp', hbl, hiff⟩ := band_outcome fm.kind hk _ pars hl 0 hne
    rw [hbp, Except.ok.injEq] at hbp'
    subst hbp'
    rw [← hiff]
    by_contra hn
    have hm := (make_outcome fm.kind hk bp hbl).2 hn
    cases hall with
    | cons h1 _ =>
      unfold modelFor at h1
      rcases hm with hm | hm <;> rw [hm] at h1 <;> split_ifs at h1
      · cases hq : i.psf <;> rw [hq] at h1 <;> simp [Except.bind] at h1
      · simp [Except.bind] at h1
      · cases hq : i.psf <;> rw [hq] at h1 <;> simp [Except.bind] at h1
      · simp [Except.bind] at h1
  · intro hf hs hp
    have hdop : fm.dopsf = true := by
      obtain ⟨q, hq, -⟩ := hp i (by rw [hobs]; simp)
      rw [hd]
      simp [Img.hasPsfGmix, hq]
    have hone : ∀ b, b < fm.obs.length → ∃ bp, fm.kind.bandPars pars b = .ok bp ∧
        ∀ j ∈ fm.obs.flatten, ∃ d, modelFor fm.kind fm.dopsf bp j = .ok d := by
      intro b hb
      obtain ⟨bp, hbp, hbl, hiff⟩ := band_outcome fm.kind hk _ pars hl b hb
      refine ⟨bp, hbp, fun j hj => ?_⟩
      obtain ⟨q, hq, hflux, hgood⟩ := hp j hj
      obtain ⟨o, ho, -⟩ := (make_outcome fm.kind hk bp hbl).1 (hiff.2 hf)
      have hpsd := make_psd fm.kind hk bp hbl (hiff.2 hf) (sizes_band fm.kind hk _ pars bp hl b hb hbp hs) o ho
      obtain ⟨cv, hcv⟩ := (C19_fails o.data q.data).2 hflux
      unfold modelFor
      rw [hdop, hq, ho]
      simp only [if_true, Except.bind, hcv]
      have hmem : ∀ x ∈ cv, ∃ g ∈ o.data, ∃ y ∈ q.data, ∃ p row col, x =
          gauss2dSet p row col (g.irr + y.irr) (g.irc + y.irc) (g.icc + y.icc) := by
        intro x hx
        unfold gmixConvolve at hcv
        cases hc : gmixGetCen q.data with
        | error e => rw [hc] at hcv; simp [Except.map] at hcv
        | ok c =>
          rw [hc] at hcv
          simp only [Except.map, Except.ok.injEq] at hcv
          subst hcv
          obtain ⟨g, hg, hx⟩ := List.mem_flatMap.1 hx
          obtain ⟨y, hy, rfl⟩ := List.mem_map.1 hx
          exact ⟨g, hg, y, hy, _, _, _, rfl⟩
      refine ready_of_usable cv ?_ ?_ ?_
      · intro x hx
        obtain ⟨g, -, y, -, p, row, col, rfl⟩ := hmem x hx
        exact (C20_set _ _ _ _ _ _).1
      · intro x hx
        obtain ⟨g, -, y, -, p, row, col, rfl⟩ := hmem x hx
        rfl
      · intro x hx
        obtain ⟨g, hg, y, hy, p, row, col, rfl⟩ := hmem x hx
        exact usable_sum (hpsd g hg) (hgood y hy) p row col
    choose! bps hb1 hb2 using hone
    have hb2' : ∀ b, b < fm.obs.length → ∀ j : Img, ∃ d, j ∈ fm.obs.flatten →
        modelFor fm.kind fm.dopsf (bps b) j = .ok d := by
      intro b hb j
      by_cases hj : j ∈ fm.obs.flatten
      · obtain ⟨d, hd⟩ := hb2 b hb j hj
        exact ⟨d, fun _ => hd⟩
      · exact ⟨[], fun h => absurd h hj⟩
    choose! ds hds using hb2'
    refine ⟨fm.obs.mapIdx fun b is => is.map (ds b), by simp, ?_⟩
    intro b is' ds' h1 h2
    have hb : b < fm.obs.length := (List.getElem?_eq_some_iff.1 h1).1
    rw [List.getElem?_mapIdx, h1] at h2
    simp only [Option.map_some, Option.some.injEq] at h2
    subst h2
    refine ⟨bps b, hb1 b hb, ?_⟩
    rw [List.forall₂_map_right_iff, List.forall₂_same]
    intro j hj
    exact hds b hb j (List.mem_flatten.2 ⟨is', List.mem_of_getElem? h1, hj⟩)

/-! ### Concrete cases -/

/-- A bulge plus disk in two bands: the second image of the first band has a psf of zero flux. -/
example (a b c : List Pixel) : newFitModel (.std "bdf") none
    [[⟨a, .ok exPsf⟩, ⟨b, .ok ⟨.full, 6, 1, [], [gauss2dSet 0 0 0 1 0 1]⟩⟩], [⟨c, .error .attribute⟩]]
    [0, 0, 0.1, 0.2, 4, 0.5, 1, 1] = .error .gmixRange := by
  have hf : Feasible (.std "bdf") [0, 0, 0.1, 0.2, 4, 0.5, 1, 1] := by
    refine ⟨_, _, _, _, _, rfl, by norm_num [InDisk], by simp, fun _ => ⟨_, _, _, rfl, ?_⟩⟩
    obtain ⟨k, hk, h0⟩ := (C23_tfactor 0.5 1).1 (by norm_num) (by norm_num) one_pos
    have := (C23_tfactor 0.5 1).2.1 k hk
    rw [← cmTsum_sizeNorm]
    intro h
    rw [h] at this
    norm_num at this
  refine ((C92_setup (.std "bdf") (by simp [CanFit]) none _ _ _ _ 0 rfl rfl).2.2 hf ⟨_, rfl⟩).2 _ ?_
  simp [psfRefusal, exPsf, Flux, gauss2dSet]

/-- A shape outside the unit disk. -/
example (a : List Pixel) : newFitModel (.std "exp") none [[⟨a, .error .attribute⟩]] [0, 0, 0.8, 0.7, 4, 1] =
    .error .gmixRange := by
  refine (C92_setup (.std "exp") (by simp [CanFit]) none _ _ _ _ 0 rfl rfl).1 ?_
  rintro ⟨_, _, _, _, _, he, hg, -⟩
  simp only [List.cons.injEq] at he
  obtain ⟨-, -, rfl, rfl, -⟩ := he
  norm_num [InDisk] at hg

/-- An exponential disk of negative flux is in range of a fit started elsewhere. -/
example (a : List Pixel) : ∃ fm st D,
    newFitModel (.std "exp") none [[⟨a, .ok exPsf⟩]] [0, 0, 0.1, 0.2, 4, 1] = .ok (fm, st) ∧
      IsModel fm [3, -2, 0.3, 0.2, 0, -7] D := by
  have hf : ∀ r c g1 g2 T F : ℝ, g1 ^ 2 + g2 ^ 2 < 1 → Feasible (.std "exp") [r, c, g1, g2, T, F] := by
    intro r c g1 g2 T F h
    exact ⟨_, _, _, _, _, rfl, by simpa [InDisk] using h, by simp, by simp⟩
  have hx : Flux exPsf.data ≠ 0 := by simp [exPsf, Flux, gauss2dSet]
  obtain ⟨st, h⟩ := ((C92_setup (.std "exp") (by simp [CanFit]) none ⟨a, .ok exPsf⟩ [] [] [0, 0, 0.1, 0.2, 4, 1] 0
    rfl rfl).2.2 (hf _ _ _ _ _ _ (by norm_num)) ⟨_, rfl⟩).1 (by simp [psfRefusal, hx])
  obtain ⟨D, hD⟩ := (C92_in_range (.std "exp") (by simp [CanFit]) none _ _ _ _ h [3, -2, 0.3, 0.2, 0, -7] rfl).2
    (hf _ _ _ _ _ _ (by norm_num)) ⟨by simp, by simp, by simp⟩ (by
      intro i hi
      simp only [List.flatten_cons, List.flatten_nil, List.append_nil, List.mem_singleton] at hi
      subst hi
      exact ⟨_, rfl, hx, by simp [exPsf, GoodPsf, gauss2dSet]; norm_num⟩)
  exact ⟨_, _, D, h, hD⟩

end

end Ngmix.Props
