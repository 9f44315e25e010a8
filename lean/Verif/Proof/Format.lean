import Verif.Model.Format
import Verif.Proof.ExceptLemmas

/-! # What one character of a format, and a whole format, can do -/

namespace Ngmix
variable {V : Type}

/-- The mode without the conversion read so far. -/
def FmtMode.kind : FmtMode → Nat
  | .text => 0
  | .start _ => 1
  | .flags _ => 2
  | .width _ => 3
  | .afterWidth _ => 4
  | .dot _ => 5
  | .prec _ => 6
  | .afterPrec _ => 7
  | .conv _ => 8

/-- Takes the next value and goes on with it. -/
def popWith (f : V → Except PyErr (List Char × FmtMode)) (o : List Char) (a : List V) : Except PyErr (FmtState V) :=
  match a with
  | [] => .error .type
  | x :: r => (f x).map fun y => ⟨o ++ y.1, r, y.2⟩

/-- Always an error; or a text is written and no value is taken; or exactly one value is taken. -/
def FShape (g : FmtSpec → List Char → List V → Except PyErr (FmtState V)) : Prop :=
  (∃ e, ∀ s o a, g s o a = .error e) ∨
  (∃ t k, ∀ s, ∃ m' : FmtMode, m'.kind = k ∧ ∀ o a, g s o a = .ok ⟨o ++ t, a, m'⟩) ∨
  (∃ k, ∀ s, ∃ f : V → Except PyErr (List Char × FmtMode), (∀ x y, f x = .ok y → y.2.kind = k) ∧
    ∀ o a, g s o a = popWith f o a)

theorem shape_convert (E : FmtEnv V) (M : FmtSpec → FmtMode) (c : Char) :
    FShape fun s o a => fmtConvert E ⟨o, a, M s⟩ s c := by
  unfold fmtConvert
  by_cases h : c = '%'
  · simp only [if_pos h]; exact .inr (.inl ⟨_, 0, fun s => ⟨.text, rfl, fun o a => rfl⟩⟩)
  · simp only [if_neg h]
    refine .inr (.inr ⟨0, fun s => ⟨fun x => if c ∈ fmtConvs then (E.render s c x).map fun t => (t, .text) else .error .value, ?_, ?_⟩⟩)
    · intro x y hy
      by_cases hc : c ∈ fmtConvs
      · simp only [if_pos hc] at hy; obtain ⟨t, _, rfl⟩ := exMap_ok hy; rfl
      · simp [if_neg hc] at hy
    · intro o a
      cases a with
      | nil => rfl
      | cons x r =>
          simp only [fmtPop, popWith]
          by_cases hc : c ∈ fmtConvs
          · simp only [if_pos hc]; cases E.render s c x <;> rfl
          · simp only [if_neg hc]; rfl

theorem shape_len (E : FmtEnv V) (M : FmtSpec → FmtMode) (c : Char) : FShape fun s o a => fmtLen E ⟨o, a, M s⟩ s c := by
  unfold fmtLen
  split
  · exact .inr (.inl ⟨[], 8, fun s => ⟨.conv s, rfl, fun o a => by simp⟩⟩)
  · exact shape_convert E M c

theorem shape_dot (E : FmtEnv V) (M : FmtSpec → FmtMode) (c : Char) : FShape fun s o a => fmtDot E ⟨o, a, M s⟩ s c := by
  unfold fmtDot
  split
  · exact .inr (.inl ⟨[], 5, fun s => ⟨.dot { s with prec := some 0 }, rfl, fun o a => by simp⟩⟩)
  · exact shape_len E M c

theorem shape_star (E : FmtEnv V) (M : FmtSpec → FmtMode) (k : FmtSpec → Int → FmtMode) (n : Nat)
    (hk : ∀ s i, (k s i).kind = n) : FShape fun s o a => fmtStar E ⟨o, a, M s⟩ (k s) := by
  refine .inr (.inr ⟨n, fun s => ⟨fun x => match E.asInt x with
    | none => .error .type
    | some i => .ok ([], k s i), ?_, ?_⟩⟩)
  · intro x y hy
    cases h : E.asInt x with
    | none => simp [h] at hy
    | some i => simp only [h, Except.ok.injEq] at hy; rw [← hy]; exact hk s i
  · intro o a
    cases a with
    | nil => rfl
    | cons x r =>
        simp only [fmtStar, fmtPop, popWith]
        cases E.asInt x <;> simp [Except.map]

theorem shape_flags (E : FmtEnv V) (M : FmtSpec → FmtMode) (c : Char) : FShape fun s o a => fmtFlags E ⟨o, a, M s⟩ s c := by
  unfold fmtFlags
  split
  · exact .inr (.inl ⟨[], 2, fun s => ⟨.flags { s with flags := s.flags ++ [c] }, rfl, fun o a => by simp⟩⟩)
  split
  · exact shape_star E M _ 4 fun s i => rfl
  split
  · exact .inr (.inl ⟨[], 3, fun s => ⟨.width { s with width := fmtDigit none c }, rfl, fun o a => by simp⟩⟩)
  · exact shape_dot E M c

/-- The same for one character in a mode, whatever was read of the conversion. -/
def MShape (E : FmtEnv V) (k : Nat) (c : Char) : Prop :=
  (∃ e, ∀ m : FmtMode, m.kind = k → ∀ o a, fmtStep E ⟨o, a, m⟩ c = .error e) ∨
  (∃ t k', ∀ m : FmtMode, m.kind = k → ∃ m' : FmtMode, m'.kind = k' ∧ ∀ o a, fmtStep E ⟨o, a, m⟩ c = .ok ⟨o ++ t, a, m'⟩) ∨
  (∃ k', ∀ m : FmtMode, m.kind = k → ∃ f : V → Except PyErr (List Char × FmtMode), (∀ x y, f x = .ok y → y.2.kind = k') ∧
    ∀ o a, fmtStep E ⟨o, a, m⟩ c = popWith f o a)

theorem mshape_of (E : FmtEnv V) (C : FmtSpec → FmtMode) (k : Nat) (c : Char) (hC : ∀ m : FmtMode, m.kind = k → ∃ s, m = C s)
    (h : FShape fun s o a => fmtStep E ⟨o, a, C s⟩ c) : MShape E k c := by
  rcases h with ⟨e, h⟩ | ⟨t, k', h⟩ | ⟨k', h⟩
  · exact .inl ⟨e, fun m hm o a => by obtain ⟨s, rfl⟩ := hC m hm; exact h s o a⟩
  · exact .inr (.inl ⟨t, k', fun m hm => by obtain ⟨s, rfl⟩ := hC m hm; exact h s⟩)
  · exact .inr (.inr ⟨k', fun m hm => by obtain ⟨s, rfl⟩ := hC m hm; exact h s⟩)

theorem mshape (E : FmtEnv V) (m : FmtMode) (c : Char) : MShape E m.kind c := by
  have hk : ∀ (m : FmtMode) (C : FmtSpec → FmtMode) (n : Nat),
      ((C = .start ∧ n = 1) ∨ (C = .flags ∧ n = 2) ∨ (C = .width ∧ n = 3) ∨ (C = .afterWidth ∧ n = 4) ∨ (C = .dot ∧ n = 5) ∨
        (C = .prec ∧ n = 6) ∨ (C = .afterPrec ∧ n = 7) ∨ (C = .conv ∧ n = 8)) → m.kind = n → ∃ s, m = C s := by
    intro m C n h hm
    rcases h with h | h | h | h | h | h | h | h <;> obtain ⟨rfl, rfl⟩ := h <;> cases m <;> simp [FmtMode.kind] at hm <;>
      exact ⟨_, rfl⟩
  cases m with
  | text =>
      have h0 : ∀ m : FmtMode, m.kind = 0 → m = .text := by intro m h; cases m <;> simp [FmtMode.kind] at h; rfl
      by_cases hc : c = '%'
      · exact .inr (.inl ⟨[], 1, fun m hm => ⟨.start ⟨[], none, none⟩, rfl, fun o a => by rw [h0 m hm]; simp [fmtStep, hc]⟩⟩)
      · exact .inr (.inl ⟨[c], 0, fun m hm => ⟨.text, rfl, fun o a => by rw [h0 m hm]; simp [fmtStep, hc]⟩⟩)
  | start s =>
      refine mshape_of E .start 1 c (fun m => hk m _ _ (by simp)) ?_
      simp only [fmtStep]
      split
      · exact .inl ⟨.type, fun _ _ _ => rfl⟩
      · exact shape_flags E _ c
  | flags s => exact mshape_of E .flags 2 c (fun m => hk m _ _ (by simp)) (by simpa only [fmtStep] using shape_flags E _ c)
  | width s =>
      refine mshape_of E .width 3 c (fun m => hk m _ _ (by simp)) ?_
      simp only [fmtStep]
      split
      · exact .inr (.inl ⟨[], 3, fun s => ⟨.width { s with width := fmtDigit s.width c }, rfl, fun o a => by simp⟩⟩)
      · exact shape_dot E _ c
  | afterWidth s => exact mshape_of E .afterWidth 4 c (fun m => hk m _ _ (by simp)) (by simpa only [fmtStep] using shape_dot E _ c)
  | dot s =>
      refine mshape_of E .dot 5 c (fun m => hk m _ _ (by simp)) ?_
      simp only [fmtStep]
      split
      · exact shape_star E _ _ 7 fun s i => rfl
      split
      · exact .inr (.inl ⟨[], 6, fun s => ⟨.prec { s with prec := fmtDigit none c }, rfl, fun o a => by simp⟩⟩)
      · exact shape_len E _ c
  | prec s =>
      refine mshape_of E .prec 6 c (fun m => hk m _ _ (by simp)) ?_
      simp only [fmtStep]
      split
      · exact .inr (.inl ⟨[], 6, fun s => ⟨.prec { s with prec := fmtDigit s.prec c }, rfl, fun o a => by simp⟩⟩)
      · exact shape_len E _ c
  | afterPrec s => exact mshape_of E .afterPrec 7 c (fun m => hk m _ _ (by simp)) (by simpa only [fmtStep] using shape_len E _ c)
  | conv s => exact mshape_of E .conv 8 c (fun m => hk m _ _ (by simp)) (by simpa only [fmtStep] using shape_convert E _ c)

/-- A format that ran has taken the first `used` values and written a text, and does so whatever stands before and after. -/
theorem fmtRun_ok (E : FmtEnv V) : ∀ (cs : List Char) (o : List Char) (a : List V) (m : FmtMode) (st : FmtState V),
    fmtRun E cs ⟨o, a, m⟩ = .ok st →
      ∃ used t, a = used ++ st.args ∧ ∀ p ex, fmtRun E cs ⟨p, used ++ ex, m⟩ = .ok ⟨p ++ t, ex, st.mode⟩
  | [], o, a, m, st, h => by
      simp only [fmtRun, Except.ok.injEq] at h
      subst h
      exact ⟨[], [], rfl, fun p ex => by simp [fmtRun]⟩
  | c :: cs, o, a, m, st, h => by
      obtain ⟨st1, h1, h2⟩ := exBind_ok h
      rcases mshape E m c with ⟨e, hs⟩ | ⟨t, k', hs⟩ | ⟨k', hs⟩
      · rw [hs m rfl] at h1; exact absurd h1 (by simp)
      · obtain ⟨m', _, hs⟩ := hs m rfl
        rw [hs] at h1
        simp only [Except.ok.injEq] at h1
        subst h1
        obtain ⟨used, t2, ha, hr⟩ := fmtRun_ok E cs _ _ _ _ h2
        exact ⟨used, t ++ t2, ha, fun p ex => by simp only [fmtRun, hs, Except.bind, hr, List.append_assoc]⟩
      · obtain ⟨f, _, hs⟩ := hs m rfl
        rw [hs] at h1
        cases a with
        | nil => exact absurd h1 (by simp [popWith])
        | cons x r =>
            obtain ⟨y, hy, rfl⟩ := exMap_ok h1
            obtain ⟨used, t2, ha, hr⟩ := fmtRun_ok E cs _ _ _ _ h2
            refine ⟨x :: used, y.1 ++ t2, by simpa using ha, fun p ex => ?_⟩
            simp only [fmtRun, hs, List.cons_append, popWith, hy, Except.map, Except.bind, hr, List.append_assoc]

/-- Two runs of the same format from the same kind of mode take the same number of values and end in the same kind. -/
theorem fmtRun_count (E : FmtEnv V) : ∀ (cs : List Char) (o o' : List Char) (a a' : List V) (m m' : FmtMode) (st st' : FmtState V),
    m.kind = m'.kind → fmtRun E cs ⟨o, a, m⟩ = .ok st → fmtRun E cs ⟨o', a', m'⟩ = .ok st' →
      st.mode.kind = st'.mode.kind ∧ a.length + st'.args.length = a'.length + st.args.length
  | [], o, o', a, a', m, m', st, st', hm, h, h' => by
      simp only [fmtRun, Except.ok.injEq] at h h'
      subst h h'
      exact ⟨hm, Nat.add_comm _ _⟩
  | c :: cs, o, o', a, a', m, m', st, st', hm, h, h' => by
      obtain ⟨s1, h1, h2⟩ := exBind_ok h
      obtain ⟨s1', h1', h2'⟩ := exBind_ok h'
      rcases mshape E m c with ⟨e, hs⟩ | ⟨t, k', hs⟩ | ⟨k', hs⟩
      · rw [hs m rfl] at h1; exact absurd h1 (by simp)
      · obtain ⟨n, hn, hq⟩ := hs m rfl
        obtain ⟨n', hn', hq'⟩ := hs m' hm.symm
        rw [hq] at h1
        rw [hq'] at h1'
        simp only [Except.ok.injEq] at h1 h1'
        subst h1 h1'
        exact fmtRun_count E cs _ _ _ _ _ _ _ _ (hn.trans hn'.symm) h2 h2'
      · obtain ⟨f, hf, hq⟩ := hs m rfl
        obtain ⟨f', hf', hq'⟩ := hs m' hm.symm
        rw [hq] at h1
        rw [hq'] at h1'
        cases a with
        | nil => exact absurd h1 (by simp [popWith])
        | cons x r =>
          cases a' with
          | nil => exact absurd h1' (by simp [popWith])
          | cons x' r' =>
            obtain ⟨y, hy, rfl⟩ := exMap_ok h1
            obtain ⟨y', hy', rfl⟩ := exMap_ok h1'
            have := fmtRun_count E cs _ _ _ _ _ _ _ _ ((hf _ _ hy).trans (hf' _ _ hy').symm) h2 h2'
            refine ⟨this.1, ?_⟩
            have h3 := this.2
            simp only [List.length_cons]
            omega

theorem fmtRun_append (E : FmtEnv V) : ∀ (cs ds : List Char) (st : FmtState V),
    fmtRun E (cs ++ ds) st = (fmtRun E cs st).bind (fmtRun E ds)
  | [], ds, st => rfl
  | c :: cs, ds, st => by
      simp only [List.cons_append, fmtRun]
      cases fmtStep E st c with
      | error e => rfl
      | ok s => simpa [Except.bind] using fmtRun_append E cs ds s

/-- A format that returned a text: it ends in text, with no value left. -/
theorem pyMod_ok (E : FmtEnv V) {fmt args s} (h : pyMod E fmt args = .ok s) :
    fmtRun E fmt ⟨[], args, .text⟩ = .ok ⟨s, [], .text⟩ := by
  obtain ⟨st, h1, h2⟩ := exBind_ok h
  obtain ⟨o, a, m⟩ := st
  cases m <;> cases a <;> simp [fmtEnd] at h2
  rw [h1, h2]

end Ngmix
