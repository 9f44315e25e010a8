import Mathlib.Tactic.Tauto
import Verif.Proof.Format

/-! # C111: the text `format_pars` and `print_pars` make of parameters -/

namespace Ngmix.Props
open Ngmix
variable {V : Type}

theorem spaceJoin_eq : ∀ xs : List (List Char), spaceJoin xs = List.intercalate [' '] xs
  | [] => rfl
  | [x] => by simp [spaceJoin, List.intercalate]
  | x :: y :: r => by
      rw [spaceJoin, spaceJoin_eq (y :: r)]
      simp [List.intercalate, List.intersperse]

theorem run_spaces (E : FmtEnv V) (sp : List Char) (hsp : ∀ c ∈ sp, c = ' ') (o : List Char) (a : List V) :
    fmtRun E sp ⟨o, a, .text⟩ = .ok ⟨o ++ sp, a, .text⟩ := by
  induction sp generalizing o with
  | nil => simp [fmtRun]
  | cons c cs ih =>
      have hc := hsp c (by simp)
      subst hc
      simp only [fmtRun, fmtStep]
      rw [if_neg (by decide)]
      simp only [Except.bind]
      rw [ih (fun c h => hsp c (by simp [h]))]
      simp

theorem run_copies (E : FmtEnv V) (fmt : List Char) (s : V → List Char) : ∀ (pars : List V),
    (∀ x ∈ pars, pyMod E fmt [x] = .ok (s x)) → ∀ o,
      fmtRun E (spaceJoin (List.replicate pars.length (fmt ++ [' ']))) ⟨o, pars, .text⟩ =
        .ok ⟨o ++ spaceJoin (pars.map fun x => s x ++ [' ']), [], .text⟩
  | [], _, o => by simp [spaceJoin, fmtRun]
  | [x], h, o => by
      obtain ⟨used, t, ha, hr⟩ := fmtRun_ok E _ _ _ _ _ (pyMod_ok E (h x (by simp)))
      have h0 := hr [] []
      simp only [List.append_nil] at ha
      subst ha
      simp only [List.append_nil, pyMod_ok E (h x (by simp)), List.nil_append, Except.ok.injEq, FmtState.mk.injEq] at h0
      have h1 := hr o []
      simp only [List.append_nil] at h1
      simp only [List.length_singleton, List.replicate, spaceJoin, List.map, fmtRun_append, h1, Except.bind]
      rw [run_spaces E [' '] (by simp), h0.1]
      simp
  | x :: y :: r, h, o => by
      obtain ⟨used, t, ha, hr⟩ := fmtRun_ok E _ _ _ _ _ (pyMod_ok E (h x (by simp)))
      have h0 := hr [] []
      simp only [List.append_nil] at ha
      subst ha
      simp only [List.append_nil, pyMod_ok E (h x (by simp)), List.nil_append, Except.ok.injEq, FmtState.mk.injEq] at h0
      have h1 := hr o (y :: r)
      have ih := run_copies E fmt s (y :: r) (fun z hz => h z (by simp at hz ⊢; tauto)) (o ++ t ++ [' ', ' '])
      simp only [List.length_cons, List.replicate_succ, spaceJoin, List.map] at ih ⊢
      have hsplit : ∀ Z, fmt ++ [' '] ++ ' ' :: Z = fmt ++ ([' ', ' '] ++ Z) := by intro Z; simp
      rw [hsplit, fmtRun_append]
      simp only [List.singleton_append] at h1
      rw [h1]
      simp only [Except.bind]
      rw [fmtRun_append, run_spaces E [' ', ' '] (by simp)]
      simp only [Except.bind]
      rw [ih, h0.1]
      simp

/-- If the format writes each of the parameters alone (`fmt % (x,)` returns `s x`), the text is these, each followed by
a space, joined by spaces. -/
theorem C111_format (E : FmtEnv V) (pars : List V) (fmt : List Char) (s : V → List Char)
    (h : ∀ x ∈ pars, pyMod E fmt [x] = .ok (s x)) :
    formatPars E pars fmt = .ok (List.intercalate [' '] (pars.map fun x => s x ++ [' '])) := by
  unfold formatPars pyMod
  rw [run_copies E fmt s pars h []]
  simp [Except.bind, fmtEnd, spaceJoin_eq]

/-- Without parameters the text is empty, for every format, also one that could not be used. -/
theorem C111_empty (E : FmtEnv V) (fmt : List Char) : formatPars E [] fmt = .ok [] := by
  simp [formatPars, spaceJoin, pyMod, fmtRun, Except.bind, fmtEnd]

/-- Running copies of a format that takes `k` values each. -/
theorem run_copies_count (E : FmtEnv V) (fmt : List Char) (args0 : List V) (r0 : List Char)
    (h0 : pyMod E fmt args0 = .ok r0) : ∀ (n : Nat) (o : List Char) (a : List V) (st : FmtState V),
    fmtRun E (spaceJoin (List.replicate n (fmt ++ [' ']))) ⟨o, a, .text⟩ = .ok st →
      a.length = n * args0.length + st.args.length ∧
        (args0.length = 1 → ∀ x ∈ a.take n, ∃ s, pyMod E fmt [x] = .ok s)
  | 0, o, a, st, h => by
      simp only [List.replicate, spaceJoin, fmtRun, Except.ok.injEq] at h
      subst h
      simp
  | n + 1, o, a, st, h => by
      have key : ∃ st1 rest, fmtRun E fmt ⟨o, a, .text⟩ = .ok st1 ∧ fmtRun E rest ⟨st1.out, st1.args, .text⟩ = .ok st ∧
          ((n = 0 ∧ rest = [' ']) ∨
            (n ≠ 0 ∧ rest = [' ', ' '] ++ spaceJoin (List.replicate n (fmt ++ [' '])))) := by
        have hmode : ∀ st1, fmtRun E fmt ⟨o, a, .text⟩ = .ok st1 → st1 = ⟨st1.out, st1.args, .text⟩ := by
          intro st1 h1
          have hk := (fmtRun_count E _ _ _ _ _ _ _ _ _ rfl h1 (pyMod_ok E h0)).1
          obtain ⟨o1, a1, m1⟩ := st1
          cases m1 <;> simp [FmtMode.kind] at hk
          rfl
        cases n with
        | zero =>
            simp only [Nat.zero_add, List.replicate, spaceJoin, fmtRun_append] at h
            obtain ⟨st1, h1, h2⟩ := exBind_ok h
            refine ⟨st1, [' '], h1, ?_, .inl ⟨rfl, rfl⟩⟩
            rw [← hmode st1 h1]; exact h2
        | succ m =>
            simp only [List.replicate_succ, spaceJoin] at h
            have hsplit : ∀ Z, fmt ++ [' '] ++ ' ' :: Z = fmt ++ ([' ', ' '] ++ Z) := by intro Z; simp
            rw [hsplit, fmtRun_append] at h
            obtain ⟨st1, h1, h2⟩ := exBind_ok h
            refine ⟨st1, _, h1, ?_, .inr ⟨by simp, rfl⟩⟩
            rw [← hmode st1 h1]
            simpa only [List.replicate_succ] using h2
      obtain ⟨st1, rest, h1, h2, hcase⟩ := key
      have hcnt := (fmtRun_count E _ _ _ _ _ _ _ _ _ rfl h1 (pyMod_ok E h0)).2
      simp only [List.length_nil, Nat.add_zero] at hcnt
      obtain ⟨used, t, ha, hr⟩ := fmtRun_ok E _ _ _ _ _ h1
      have hmd : st1.mode = .text := by
        have hk := (fmtRun_count E _ _ _ _ _ _ _ _ _ rfl h1 (pyMod_ok E h0)).1
        obtain ⟨o1, a1, m1⟩ := st1
        cases m1 <;> simp [FmtMode.kind] at hk
        rfl
      have hone : args0.length = 1 → ∃ x, a = x :: st1.args ∧ ∃ s, pyMod E fmt [x] = .ok s := by
        intro h1'
        have hl := congrArg List.length ha
        simp only [List.length_append] at hl
        obtain ⟨x, hx⟩ : ∃ x, used = [x] := List.length_eq_one_iff.mp (by omega)
        subst hx
        refine ⟨x, ha, t, ?_⟩
        have := hr [] []
        simp only [List.append_nil, List.nil_append] at this
        simp [pyMod, this, Except.bind, hmd, fmtEnd]
      have htail : st1.args.length = n * args0.length + st.args.length ∧
          (args0.length = 1 → ∀ x ∈ st1.args.take n, ∃ s, pyMod E fmt [x] = .ok s) := by
        rcases hcase with ⟨rfl, rfl⟩ | ⟨_, rfl⟩
        · rw [run_spaces E [' '] (by simp)] at h2
          simp only [Except.ok.injEq] at h2
          subst h2
          simp
        · rw [fmtRun_append, run_spaces E [' ', ' '] (by simp)] at h2
          exact run_copies_count E fmt args0 r0 h0 n _ _ _ h2
      refine ⟨by rw [hcnt, htail.1, Nat.succ_mul]; omega, fun h1' x hx => ?_⟩
      obtain ⟨z, hz, hs⟩ := hone h1'
      rw [hz, List.take_succ_cons, List.mem_cons] at hx
      rcases hx with rfl | hx
      · exact hs
      · exact htail.2 h1' x hx

/-- With a format that can be used at all (with some number of values), a text is returned only if the format writes
each parameter alone: a format for no value or for two is refused. -/
theorem C111_only (E : FmtEnv V) (pars : List V) (fmt : List Char) (args0 : List V) (r0 out : List Char)
    (h0 : pyMod E fmt args0 = .ok r0) (h : formatPars E pars fmt = .ok out) :
    ∀ x ∈ pars, ∃ s, pyMod E fmt [x] = .ok s := by
  intro x hx
  have hc := run_copies_count E fmt args0 r0 h0 _ _ _ _ (pyMod_ok E h)
  have hpos : 0 < pars.length := List.length_pos_of_mem hx
  have h1 : args0.length = 1 := by
    have := hc.1
    simp only [List.length_nil, Nat.add_zero] at this
    exact Nat.eq_of_mul_eq_mul_left hpos (by omega)
  exact hc.2 h1 x (by simpa using hx)

/-- With such a format and parameters it does not take one by one, an exception is raised, nothing is written. -/
theorem C111_refused (E : FmtEnv V) (S : PrintState) (pars : List V) (fmt : List Char) (args0 : List V) (r0 : List Char)
    (front : Option (List Char)) (logger : Bool) (h0 : pyMod E fmt args0 = .ok r0) (x : V) (hx : x ∈ pars)
    (hbad : ∀ s, pyMod E fmt [x] ≠ .ok s) :
    (printPars E S (some pars) fmt front logger).1 = S ∧ ∃ e, (printPars E S (some pars) fmt front logger).2 = .error e := by
  cases h : formatPars E pars fmt with
  | ok out =>
      obtain ⟨s, hs⟩ := C111_only E pars fmt args0 r0 out h0 h x hx
      exact absurd hs (hbad s)
  | error e => simp [printPars, h]

/-- What `print_pars` writes: `front` and a space, also when `front` is empty, the text of the parameters or `None`,
and the end of the line; exactly once, to the stream.  With a logger there is no end of line and the stream is untouched. -/
theorem C111_print (E : FmtEnv V) (S : PrintState) (pars : List V) (fmt : List Char) (s : V → List Char) (f : List Char)
    (h : ∀ x ∈ pars, pyMod E fmt [x] = .ok (s x)) :
    let body := List.intercalate [' '] (pars.map fun x => s x ++ [' '])
    printPars E S (some pars) fmt none false = (⟨S.stream ++ [body ++ ['\n']], S.debug⟩, .ok ()) ∧
    printPars E S (some pars) fmt (some f) false = (⟨S.stream ++ [f ++ [' '] ++ body ++ ['\n']], S.debug⟩, .ok ()) ∧
    printPars E S (some pars) fmt none true = (⟨S.stream, S.debug ++ [body]⟩, .ok ()) ∧
    printPars E S (some pars) fmt (some f) true = (⟨S.stream, S.debug ++ [f ++ [' '] ++ body]⟩, .ok ()) ∧
    printPars E S none fmt none false = (⟨S.stream ++ ["None\n".toList], S.debug⟩, .ok ()) ∧
    printPars E S none fmt (some f) true = (⟨S.stream, S.debug ++ [f ++ " None".toList]⟩, .ok ()) := by
  simp [printPars, C111_format E pars fmt s h]

/-- Numbers written in full, for the examples. -/
def intEnv : FmtEnv Int := ⟨fun _ _ x => .ok (toString x).toList, some⟩

/-- The hypothesis of `C111_only` is needed: `format_pars([3, 4], fmt="*.*%")` returns a text although
`"*.*%" % (3,)` raises. -/
theorem C111_stray : formatPars intEnv [3, 4] "*.*%".toList = .ok "*.*% ".toList ∧
    pyMod intEnv "*.*%".toList [3] = .error .value := by
  constructor <;> rfl

/-- The hypotheses of `C111_format`: the default format on one number. -/
example (x : Int) : pyMod intEnv "%8.3g".toList [x] = .ok (toString x).toList := rfl
example : formatPars intEnv [3, 4] "%8.3g".toList = .ok "3  4 ".toList :=
  C111_format intEnv _ _ (fun x => (toString x).toList) fun _ _ => rfl
/-- A format for two values, and one for none: the hypotheses of `C111_refused`. -/
example : (printPars intEnv ⟨[], []⟩ (some [3, 4]) "%d %d".toList none false).1 = ⟨[], []⟩ :=
  (C111_refused intEnv _ _ _ [1, 2] _ none false rfl 3 (by simp) (fun s h => by
    have he : pyMod intEnv "%d %d".toList [3] = .error .type := rfl
    rw [he] at h; exact absurd h (by simp))).1

end Ngmix.Props
