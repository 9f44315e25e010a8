import Verif.Spec.MetacalConv
import Verif.Props.Metacal
import Mathlib.Tactic.FieldSimp
import Mathlib.Tactic.Linarith
import Mathlib.Tactic.Positivity

/-! C54, C55: metacal with fixnoise and over lists of observations. -/

namespace Ngmix.Props

open Ngmix Ngmix.Spec

variable {σ Ob O X : Type}

/-! ### Dictionaries -/

theorem dict_keys_set_of_mem {α : Type} (d : Dict α) (k : String) (v : α) (h : k ∈ d.keys) : (d.set k v).keys = d.keys := by
  unfold Dict.set Dict.keys at *
  rw [if_pos h, List.map_map]
  apply List.map_congr_left
  intro q _
  simp only [Function.comp]
  split_ifs with h
  · exact h.symm
  · rfl

theorem dict_get_mapVals {β γ : Type} (f : β → γ) (d : Dict β) (k : String) :
    (d.mapVals f).get? k = (d.get? k).map f := by
  unfold Dict.mapVals Dict.get?
  induction d with
  | nil => rfl
  | cons p d ih =>
      simp only [List.map_cons, List.find?_cons]
      by_cases hp : p.1 = k
      · simp [hp]
      · simp only [hp, decide_false]
        exact ih

theorem dict_keys_mapVals {β γ : Type} (f : β → γ) (d : Dict β) : (d.mapVals f).keys = d.keys := by
  unfold Dict.mapVals Dict.keys
  rw [List.map_map]; rfl

theorem initDict_eq {β γ : Type} (d : Dict β) : (initDict d : Dict (List γ)) = d.mapVals fun _ => [] := rfl

theorem dict_get_cons {α : Type} (k k' : String) (v : α) (d : Dict α) :
    Dict.get? ((k, v) :: d) k' = if k' = k then some v else d.get? k' := by
  unfold Dict.get?
  rw [List.find?_cons]
  by_cases h : k = k'
  · subst h; simp
  · have : ¬ k' = k := fun h' => h h'.symm
    simp [h, this]

theorem appendEach_spec (acc : Dict (List Ob)) (d : Dict Ob) (h : ∀ k ∈ acc.keys, k ∈ d.keys) :
    ∃ acc', appendEach acc d = .ok acc' ∧ acc'.keys = acc.keys ∧
      ∀ k l, acc.get? k = some l → ∃ o, d.get? k = some o ∧ acc'.get? k = some (l ++ [o]) := by
  induction acc with
  | nil => exact ⟨[], rfl, rfl, fun k l h => by simp [Dict.get?] at h⟩
  | cons p acc ih =>
      obtain ⟨k, l⟩ := p
      obtain ⟨acc', h1, h2, h3⟩ := ih fun k' hk' => h k' (List.mem_cons_of_mem _ hk')
      have hk := (dict_get_isSome d k).2 (h k List.mem_cons_self)
      obtain ⟨o, ho⟩ := Option.isSome_iff_exists.1 hk
      refine ⟨(k, l ++ [o]) :: acc', ?_, ?_, ?_⟩
      · simp only [appendEach, ho, h1, Except.map]
      · show k :: acc'.keys = k :: Dict.keys acc
        rw [h2]
      · intro k' l' hl'
        rw [dict_get_cons] at hl' ⊢
        by_cases hkk : k' = k
        · rw [if_pos hkk] at hl' ⊢
          injection hl' with hl'
          exact ⟨o, by rw [hkk]; exact ho, by rw [hl']⟩
        · rw [if_neg hkk] at hl' ⊢
          exact h3 k' l' hl'

theorem appendBand_spec (d : Dict (List Ob)) : ∀ acc : Dict (List (List Ob)), (∀ k ∈ d.keys, k ∈ acc.keys) → d.keys.Nodup →
    ∃ acc', appendBand d acc = .ok acc' ∧ acc'.keys = acc.keys ∧
      ∀ k ls, acc.get? k = some ls → acc'.get? k = some (match d.get? k with | some l => ls ++ [l] | none => ls) := by
  induction d with
  | nil => intro acc _ _; exact ⟨acc, rfl, rfl, fun k ls h => by simpa [Dict.get?] using h⟩
  | cons p d ih =>
      obtain ⟨k, l⟩ := p
      intro acc hk hn
      obtain ⟨ls, hls⟩ := Option.isSome_iff_exists.1 ((dict_get_isSome acc k).2 (hk k List.mem_cons_self))
      have hkeys := dict_keys_set_of_mem acc k (ls ++ [l]) (hk k List.mem_cons_self)
      have hn' : k ∉ Dict.keys d ∧ (Dict.keys d).Nodup := List.nodup_cons.1 hn
      obtain ⟨acc', h1, h2, h3⟩ := ih (acc.set k (ls ++ [l]))
        (fun k' hk' => by rw [hkeys]; exact hk k' (List.mem_cons_of_mem _ hk')) hn'.2
      refine ⟨acc', ?_, h2.trans hkeys, ?_⟩
      · simp only [appendBand, appendAt, hls, Except.bind, h1]
      · intro k' ls' hls'
        rw [dict_get_cons]
        by_cases hkk : k' = k
        · subst hkk
          have hnone : Dict.get? d k' = none := by
            rcases hx : Dict.get? d k' with _ | y
            · rfl
            · exact absurd ((dict_get_isSome d k').1 (by rw [hx]; rfl)) hn'.1
          have := h3 k' (ls ++ [l]) (by rw [dict_get_set, if_pos rfl])
          rw [hnone] at this
          rw [hls] at hls'
          injection hls' with hls'
          rw [this, if_pos rfl, hls']
        · have := h3 k' ls' (by rw [dict_get_set, if_neg hkk]; exact hls')
          rw [this, if_neg hkk]

/-! ### Lists -/

theorem mcListLoop_spec (one : σ → Ob → σ × Except PyErr (Dict Ob)) (Inv : σ → Prop) (K : String → Prop)
    (hU : UniformKeys one Inv K) (l : List Ob) :
    ∀ (st : σ) (acc : Dict (List Ob)), Inv st → (∀ k, k ∈ acc.keys ↔ K k) →
      (mcListLoop one l st (some acc)).1 = (inOrder one l st).1 ∧ Inv (inOrder one l st).1 ∧
      (∀ e, (inOrder one l st).2 = .error e → (mcListLoop one l st (some acc)).2 = .error e) ∧
      (∀ ds, (inOrder one l st).2 = .ok ds → ∃ d, (mcListLoop one l st (some acc)).2 = .ok (some d) ∧ d.keys = acc.keys ∧
        ∀ k l0, acc.get? k = some l0 → ∃ os, d.get? k = some (l0 ++ os) ∧ os.map some = ds.map fun d => d.get? k) := by
  induction l with
  | nil =>
      intro st acc hI hK
      refine ⟨rfl, hI, fun e h => (by cases h), fun ds h => ?_⟩
      injection h with h
      subst h
      exact ⟨acc, rfl, rfl, fun k l0 h => ⟨[], by simpa using h, rfl⟩⟩
  | cons o os ih =>
      intro st acc hI hK
      obtain ⟨hI1, hd⟩ := hU st o hI
      unfold mcListLoop inOrder
      rcases h1 : one st o with ⟨st1, e | d⟩
      · rw [h1] at hI1
        exact ⟨rfl, hI1, fun e' h => (by cases h; rfl), fun ds h => by cases h⟩
      · rw [h1] at hI1 hd
        simp only at hI1 hd ⊢
        obtain ⟨hdn, hdk⟩ := hd d rfl
        obtain ⟨acc', ha, hk', hg⟩ := appendEach_spec acc d fun k hk => (hdk k).2 ((hK k).1 hk)
        simp only [Option.getD_some, ha]
        obtain ⟨i1, i2, i3, i4⟩ := ih st1 acc' hI1 (by rw [hk']; exact hK)
        rcases hr : inOrder one os st1 with ⟨st2, e | ds⟩
        · rw [hr] at i1 i2 i3
          simp only at i1 i2 i3 ⊢
          exact ⟨i1, i2, fun e' h => (by cases h; exact i3 _ rfl), fun ds h => by cases h⟩
        · rw [hr] at i1 i2 i4
          simp only at i1 i2 i4 ⊢
          refine ⟨i1, i2, fun e' h => (by cases h), fun ds' h => ?_⟩
          injection h with h
          subst h
          obtain ⟨d', hd', hkd, hgd⟩ := i4 ds rfl
          refine ⟨d', hd', hkd.trans hk', fun k l0 hl0 => ?_⟩
          obtain ⟨x, hx, hx'⟩ := hg k l0 hl0
          obtain ⟨os', ho1, ho2⟩ := hgd k _ hx'
          exact ⟨x :: os', by simpa using ho1, by simp [ho2, hx]⟩

/-- The list loop from the start. -/
theorem mcList_spec (one : σ → Ob → σ × Except PyErr (Dict Ob)) (Inv : σ → Prop) (K : String → Prop)
    (hU : UniformKeys one Inv K) (l : List Ob) (hl : l ≠ []) (st : σ) (hI : Inv st) :
      (mcListLoop one l st none).1 = (inOrder one l st).1 ∧ Inv (inOrder one l st).1 ∧
      (∀ e, (inOrder one l st).2 = .error e → (mcListLoop one l st none).2 = .error e) ∧
      (∀ ds, (inOrder one l st).2 = .ok ds → ∃ d, (mcListLoop one l st none).2 = .ok (some d) ∧ d.keys.Nodup ∧
        (∀ k, k ∈ d.keys ↔ K k) ∧ ∀ k, K k → ∃ os, d.get? k = some os ∧ os.map some = ds.map fun d => d.get? k) := by
  rcases l with _ | ⟨o, os⟩
  · exact absurd rfl hl
  · obtain ⟨hI1, hd⟩ := hU st o hI
    rcases h1 : one st o with ⟨st1, e | d⟩
    · rw [h1] at hI1
      unfold mcListLoop inOrder
      rw [h1]
      exact ⟨rfl, hI1, fun e' h => (by cases h; rfl), fun ds h => by cases h⟩
    · rw [h1] at hd
      obtain ⟨hdn, hdk⟩ := hd d rfl
      have hsame : mcListLoop one (o :: os) st none = mcListLoop one (o :: os) st (some (initDict d)) := by
        unfold mcListLoop
        rw [h1]
        rfl
      rw [hsame]
      have hik : (initDict d : Dict (List Ob)).keys = d.keys := by rw [initDict_eq, dict_keys_mapVals]
      obtain ⟨i1, i2, i3, i4⟩ := mcListLoop_spec one Inv K hU (o :: os) st (initDict d) hI (by rw [hik]; exact hdk)
      refine ⟨i1, i2, i3, fun ds h => ?_⟩
      obtain ⟨d', h2, h3, h4⟩ := i4 ds h
      refine ⟨d', h2, by rw [h3, hik]; exact hdn, by rw [h3, hik]; exact hdk, fun k hk => ?_⟩
      obtain ⟨x, hx⟩ := Option.isSome_iff_exists.1 ((dict_get_isSome d k).2 ((hdk k).2 hk))
      have : (initDict d : Dict (List Ob)).get? k = some [] := by rw [initDict_eq, dict_get_mapVals, hx]; rfl
      exact h4 k [] this

theorem mcBandLoop_spec (one : σ → Ob → σ × Except PyErr (Dict Ob)) (Inv : σ → Prop) (K : String → Prop)
    (hU : UniformKeys one Inv K) (ls : List (List Ob)) (hls : ∀ l ∈ ls, l ≠ []) :
    ∀ (st : σ) (acc : Dict (List (List Ob))), Inv st → (∀ k, k ∈ acc.keys ↔ K k) →
      (mcBandLoop one ls st (some acc)).1 = (inOrder (fun s l => inOrder one l s) ls st).1 ∧
      Inv (inOrder (fun s l => inOrder one l s) ls st).1 ∧
      (∀ e, (inOrder (fun s l => inOrder one l s) ls st).2 = .error e → (mcBandLoop one ls st (some acc)).2 = .error e) ∧
      (∀ dss, (inOrder (fun s l => inOrder one l s) ls st).2 = .ok dss →
        ∃ d, (mcBandLoop one ls st (some acc)).2 = .ok (some d) ∧ d.keys = acc.keys ∧
        ∀ k l0, acc.get? k = some l0 → ∃ oss : List (List Ob), d.get? k = some (l0 ++ oss) ∧
          oss.map (fun os => os.map some) = dss.map fun ds => ds.map fun d => d.get? k) := by
  induction ls with
  | nil =>
      intro st acc hI hK
      refine ⟨rfl, hI, fun e h => (by cases h), fun ds h => ?_⟩
      injection h with h
      subst h
      exact ⟨acc, rfl, rfl, fun k l0 h => ⟨[], by simpa using h, rfl⟩⟩
  | cons l ls ih =>
      intro st acc hI hK
      have ih := ih fun l' hl' => hls l' (List.mem_cons_of_mem _ hl')
      obtain ⟨j1, j2, j3, j4⟩ := mcList_spec one Inv K hU l (hls l List.mem_cons_self) st hI
      unfold mcBandLoop
      rw [inOrder]
      rcases h1 : inOrder one l st with ⟨st1, e | ds⟩
      · rw [h1] at j1 j2 j3
        have h2 : mcListLoop one l st none = (st1, .error e) := Prod.ext j1 (j3 e rfl)
        rw [h2]
        exact ⟨rfl, j2, fun e' h => (by cases h; rfl), fun ds h => by cases h⟩
      · rw [h1] at j1 j2 j4
        obtain ⟨d, hd, hdn, hdk, hdg⟩ := j4 ds rfl
        have h2 : mcListLoop one l st none = (st1, .ok (some d)) := Prod.ext j1 hd
        rw [h2]
        simp only at j2 ⊢
        obtain ⟨acc', ha, hk', hg⟩ := appendBand_spec d acc (fun k hk => (hK k).2 ((hdk k).1 hk)) hdn
        simp only [Option.getD_some, ha]
        obtain ⟨i1, i2, i3, i4⟩ := ih st1 acc' j2 (by rw [hk']; exact hK)
        rcases hr : inOrder (fun s l => inOrder one l s) ls st1 with ⟨st2, e | dss⟩
        · rw [hr] at i1 i2 i3
          simp only at i1 i2 i3 ⊢
          exact ⟨i1, i2, fun e' h => (by cases h; exact i3 _ rfl), fun ds h => by cases h⟩
        · rw [hr] at i1 i2 i4
          simp only at i1 i2 i4 ⊢
          refine ⟨i1, i2, fun e' h => (by cases h), fun ds' h => ?_⟩
          injection h with h
          subst h
          obtain ⟨d', hd', hkd, hgd⟩ := i4 dss rfl
          refine ⟨d', hd', hkd.trans hk', fun k l0 hl0 => ?_⟩
          have hKk : K k := (hK k).1 ((dict_get_isSome acc k).1 (by rw [hl0]; rfl))
          obtain ⟨os, ho1, ho2⟩ := hdg k hKk
          have hx := hg k l0 hl0
          rw [ho1] at hx
          obtain ⟨oss, hoo1, hoo2⟩ := hgd k _ hx
          exact ⟨os :: oss, by simpa using hoo1, by simp [hoo2, ho2]⟩

/-- C55.  Metacal on a non-empty ObsList runs over the observations in order, each on its own.  If one of them raises, the
call raises the same error.  Otherwise every type has an ObsList of the same length, whose i-th member is what metacal on
the i-th observation gave for that type. -/
theorem C55_list (one : σ → Ob → σ × Except PyErr (Dict Ob)) (Inv : σ → Prop) (K : String → Prop)
    (hU : UniformKeys one Inv K) {MD : Type} (md : MD) (l : List Ob) (hl : l ≠ []) (st : σ) (hI : Inv st) :
    (getAllPlain one (.list md l) st).1 = (inOrder one l st).1 ∧
    (∀ e, (inOrder one l st).2 = .error e → (getAllPlain one (.list md l) st).2 = .error e) ∧
    (∀ ds, (inOrder one l st).2 = .ok ds → ∃ d, (getAllPlain one (.list md l) st).2 = .ok (some d) ∧ d.keys.Nodup ∧
      (∀ k, k ∈ d.keys ↔ K k) ∧
      ∀ k, K k → ∃ os, d.get? k = some (.list () os) ∧ os.map some = ds.map fun d => d.get? k) := by
  obtain ⟨h1, h2, h3, h4⟩ := mcList_spec one Inv K hU l hl st hI
  refine ⟨h1, fun e he => ?_, fun ds hds => ?_⟩
  · show (mcListLoop one l st none).2.map _ = _
    rw [h3 e he]; rfl
  · obtain ⟨d, hd, hn, hk, hg⟩ := h4 ds hds
    refine ⟨d.mapVals (.list ()), ?_, by rw [dict_keys_mapVals]; exact hn, by rw [dict_keys_mapVals]; exact hk,
      fun k hK => ?_⟩
    · show (mcListLoop one l st none).2.map _ = _
      rw [hd]; rfl
    · obtain ⟨os, ho, ho2⟩ := hg k hK
      exact ⟨os, by rw [dict_get_mapVals, ho]; rfl, ho2⟩

/-- C55.  Metacal on a MultiBandObsList without empty bands keeps the nesting: every type has as many bands, each band as
many observations, in the same order, and each observation is what metacal on the corresponding input gave. -/
theorem C55_multiband (one : σ → Ob → σ × Except PyErr (Dict Ob)) (Inv : σ → Prop) (K : String → Prop)
    (hU : UniformKeys one Inv K) {MD : Type} (md : MD) (l : List (MD × List Ob)) (hl : l ≠ [])
    (hne : ∀ b ∈ l, b.2 ≠ []) (st : σ) (hI : Inv st) :
    (getAllPlain one (.mb md l) st).1 = (inOrder (fun s (b : MD × List Ob) => inOrder one b.2 s) l st).1 ∧
    (∀ e, (inOrder (fun s (b : MD × List Ob) => inOrder one b.2 s) l st).2 = .error e →
      (getAllPlain one (.mb md l) st).2 = .error e) ∧
    (∀ dss, (inOrder (fun s (b : MD × List Ob) => inOrder one b.2 s) l st).2 = .ok dss →
      ∃ d, (getAllPlain one (.mb md l) st).2 = .ok (some d) ∧ d.keys.Nodup ∧ (∀ k, k ∈ d.keys ↔ K k) ∧
      ∀ k, K k → ∃ oss : List (List Ob), d.get? k = some (.mb () (oss.map fun os => ((), os))) ∧
        oss.map (fun os => os.map some) = dss.map fun ds => ds.map fun d => d.get? k) := by
  have hmap : ∀ (l : List (MD × List Ob)) st, inOrder (fun s (b : MD × List Ob) => inOrder one b.2 s) l st =
      inOrder (fun s l => inOrder one l s) (l.map Prod.snd) st := by
    intro l
    induction l with
    | nil => intro st; rfl
    | cons b l ih =>
        intro st
        simp only [inOrder, List.map_cons]
        rcases inOrder one b.2 st with ⟨s, e | d⟩
        · rfl
        · simp only [ih]
  rw [hmap]
  rcases l with _ | ⟨b, bs⟩
  · exact absurd rfl hl
  obtain ⟨j1, j2, j3, j4⟩ := mcList_spec one Inv K hU b.2 (hne b List.mem_cons_self) st hI
  have main : (mcBandLoop one ((b :: bs).map Prod.snd) st none).1 =
        (inOrder (fun s l => inOrder one l s) ((b :: bs).map Prod.snd) st).1 ∧
      (∀ e, (inOrder (fun s l => inOrder one l s) ((b :: bs).map Prod.snd) st).2 = .error e →
        (mcBandLoop one ((b :: bs).map Prod.snd) st none).2 = .error e) ∧
      (∀ dss, (inOrder (fun s l => inOrder one l s) ((b :: bs).map Prod.snd) st).2 = .ok dss →
        ∃ d, (mcBandLoop one ((b :: bs).map Prod.snd) st none).2 = .ok (some d) ∧ d.keys.Nodup ∧
          (∀ k, k ∈ d.keys ↔ K k) ∧ ∀ k, K k → ∃ oss : List (List Ob), d.get? k = some oss ∧
          oss.map (fun os => os.map some) = dss.map fun ds => ds.map fun d => d.get? k) := by
    rcases h1 : inOrder one b.2 st with ⟨st1, e | ds⟩
    · rw [h1] at j1 j3
      have h2 : mcListLoop one b.2 st none = (st1, .error e) := Prod.ext j1 (j3 e rfl)
      simp only [List.map_cons]
      unfold mcBandLoop
      rw [inOrder, h2, h1]
      exact ⟨rfl, fun e' h => (by cases h; rfl), fun ds h => by cases h⟩
    · rw [h1] at j1 j4
      obtain ⟨d, hd, hdn, hdk, hdg⟩ := j4 ds rfl
      have h2 : mcListLoop one b.2 st none = (st1, .ok (some d)) := Prod.ext j1 hd
      have hsame : mcBandLoop one ((b :: bs).map Prod.snd) st none =
          mcBandLoop one ((b :: bs).map Prod.snd) st (some (initDict d)) := by
        simp only [List.map_cons]
        unfold mcBandLoop
        rw [h2]
        rfl
      rw [hsame]
      have hik : (initDict d : Dict (List (List Ob))).keys = d.keys := by rw [initDict_eq, dict_keys_mapVals]
      obtain ⟨i1, i2, i3, i4⟩ := mcBandLoop_spec one Inv K hU ((b :: bs).map Prod.snd)
        (fun l hl => by obtain ⟨x, hx, rfl⟩ := List.mem_map.1 hl; exact hne x hx) st (initDict d) hI
        (by rw [hik]; exact hdk)
      refine ⟨i1, i3, fun dss h => ?_⟩
      obtain ⟨d', k1, k2, k3⟩ := i4 dss h
      refine ⟨d', k1, by rw [k2, hik]; exact hdn, by rw [k2, hik]; exact hdk, fun k hk => ?_⟩
      obtain ⟨x, hx⟩ := Option.isSome_iff_exists.1 ((dict_get_isSome d k).2 ((hdk k).2 hk))
      have : (initDict d : Dict (List (List Ob))).get? k = some [] := by rw [initDict_eq, dict_get_mapVals, hx]; rfl
      exact k3 k [] this
  obtain ⟨m1, m2, m3⟩ := main
  refine ⟨m1, fun e he => ?_, fun dss hds => ?_⟩
  · show (mcBandLoop one ((b :: bs).map Prod.snd) st none).2.map _ = _
    rw [m2 e he]; rfl
  · obtain ⟨d, hd, hn, hk, hg⟩ := m3 dss hds
    refine ⟨d.mapVals fun ls => .mb () (ls.map fun l => ((), l)), ?_, by rw [dict_keys_mapVals]; exact hn,
      by rw [dict_keys_mapVals]; exact hk, fun k hK => ?_⟩
    · show (mcBandLoop one ((b :: bs).map Prod.snd) st none).2.map _ = _
      rw [hd]; rfl
    · obtain ⟨os, ho, ho2⟩ := hg k hK
      exact ⟨os, by rw [dict_get_mapVals, ho]; rfl, ho2⟩

/-- C55.  What happens with empty lists and other arguments: an empty ObsList or MultiBandObsList gives `None` instead of a
dictionary (TypeError with fixnoise, if noise could be made), a MultiBandObsList whose first band is empty raises
AttributeError, and anything that is not an observation ValueError. -/
theorem C55_empty (one : σ → Ob → σ × Except PyErr (Dict Ob)) {MD : Type} (md : MD) (st : σ) :
    getAllPlain one (.list md []) st = (st, .ok none) ∧
    getAllPlain one (.mb md []) st = (st, .ok none) ∧
    (∀ m ls, getAllPlain one (.mb md ((m, []) :: ls)) st = (st, .error .attribute)) ∧
    getAllPlain one (ObsIn.other : ObsIn Ob MD) st = (st, .error .value) :=
  ⟨rfl, rfl, fun _ _ => rfl, rfl⟩

/-- C55.  A band without observations after other bands: if the bands before it fail, that is the failure; if they give a
dictionary, the call raises TypeError, in the state those bands left, whatever comes after. -/
theorem C55_later_empty (one : σ → Ob → σ × Except PyErr (Dict Ob)) {MD : Type} (md m : MD)
    (l rest : List (MD × List Ob)) (st : σ) :
    (∀ e, (getAllPlain one (.mb md l) st).2 = .error e →
      getAllPlain one (.mb md (l ++ (m, []) :: rest)) st = ((getAllPlain one (.mb md l) st).1, .error e)) ∧
    (∀ d, (getAllPlain one (.mb md l) st).2 = .ok (some d) →
      getAllPlain one (.mb md (l ++ (m, []) :: rest)) st = ((getAllPlain one (.mb md l) st).1, .error .type)) := by
  have key : ∀ (ls more : List (List Ob)) (st : σ) (acc : Option (Dict (List (List Ob)))),
      (∀ s e, mcBandLoop one ls st acc = (s, .error e) → mcBandLoop one (ls ++ [] :: more) st acc = (s, .error e)) ∧
      (∀ s d, mcBandLoop one ls st acc = (s, .ok (some d)) →
        mcBandLoop one (ls ++ [] :: more) st acc = (s, .error .type)) := by
    intro ls more
    induction ls with
    | nil =>
        intro st acc
        refine ⟨fun s e h => ?_, fun s d h => ?_⟩
        · simp [mcBandLoop] at h
        · simp only [mcBandLoop, Prod.mk.injEq, Except.ok.injEq] at h
          obtain ⟨rfl, rfl⟩ := h
          rfl
    | cons b bs ih =>
        intro st acc
        rw [List.cons_append]
        unfold mcBandLoop
        rcases mcListLoop one b st none with ⟨s1, e1 | (_ | d1)⟩
        · exact ⟨fun s e h => h, fun s d h => by simp at h⟩
        · exact ⟨fun s e h => h, fun s d h => by simp at h⟩
        · dsimp only
          rcases appendBand d1 (acc.getD (initDict d1)) with e2 | a2
          · exact ⟨fun s e h => h, fun s d h => by simp at h⟩
          · exact ih s1 (some a2)
  obtain ⟨k1, k2⟩ := key (l.map Prod.snd) (rest.map Prod.snd) st none
  have hm : (l ++ (m, ([] : List Ob)) :: rest).map Prod.snd = l.map Prod.snd ++ [] :: rest.map Prod.snd := by simp
  unfold getAllPlain
  dsimp only
  rw [hm]
  rcases hb : mcBandLoop one (l.map Prod.snd) st none with ⟨s, e | (_ | d)⟩
  · refine ⟨fun e' h => ?_, fun d h => by simp [Except.map] at h⟩
    rw [k1 s e hb]
    simp only [Except.map, Except.error.injEq] at h ⊢
    rw [h]
  · exact ⟨fun e' h => by simp [Except.map] at h, fun d h => by simp [Except.map] at h⟩
  · refine ⟨fun e' h => by simp [Except.map] at h, fun d' _ => ?_⟩
    rw [k2 s d hb]
    rfl

/-- C55.  A single observation: the dictionary of the class, entry by entry. -/
theorem C55_single (one : σ → Ob → σ × Except PyErr (Dict Ob)) {MD : Type} (o : Ob) (st : σ) :
    (getAllPlain one (ObsIn.obs o : ObsIn Ob MD) st).1 = (one st o).1 ∧
    (∀ e, (one st o).2 = .error e → (getAllPlain one (ObsIn.obs o : ObsIn Ob MD) st).2 = .error e) ∧
    (∀ d, (one st o).2 = .ok d → ∃ d', (getAllPlain one (ObsIn.obs o : ObsIn Ob MD) st).2 = .ok (some d') ∧
      d'.keys = d.keys ∧ ∀ k, d'.get? k = (d.get? k).map .obs) := by
  refine ⟨rfl, fun e h => ?_, fun d h => ⟨d.mapVals .obs, ?_, dict_keys_mapVals _ _, dict_get_mapVals _ _⟩⟩
  · show (one st o).2.map _ = _
    rw [h]; rfl
  · show (one st o).2.map _ = _
    rw [h]; rfl

/-! ### The Metacal classes have uniform keys -/

/-- The names a `types` argument stands for. -/
def typeNames : TypesArg → Option (List String)
  | .none => none
  | .list l => some l
  | .tuple l => some l

/-- C55.  Making any of the Metacal classes and calling `get_all` gives every observation the same keys: the wanted types
of the caller's list, even though the list may be extended on the way. -/
theorem C55_uniform_keys (mk : σ → MObs O X → σ × Except PyErr (Mc O X)) (step : ℝ) (l : List String) :
    UniformKeys (metacalOne mk step) (fun st => ∃ l', st.2 = .list l' ∧ ∀ k, Wanted l' k ↔ Wanted l k) (Wanted l) := by
  rintro ⟨st, ty⟩ o ⟨l', hty, hw⟩
  simp only at hty
  subst hty
  unfold metacalOne
  simp only
  rcases h1 : mk st o with ⟨s1, e | mc⟩
  · exact ⟨⟨l', rfl, hw⟩, fun d h => by cases h⟩
  · simp only
    have hE : (fun _ => none : PsfCache O) = mcAfter mc [] := rfl
    rw [hE]
    constructor
    · rw [(C53_types_argument mc [] step l').1]
      refine ⟨_, rfl, fun k => ?_⟩
      rw [← hw k]
      split_ifs with h
      · unfold Wanted
        simp only [List.mem_append, List.mem_singleton]
        constructor
        · rintro ((h1 | h1) | h1 | h1)
          · exact Or.inl h1
          · exact Or.inr (Or.inr ⟨h1, h.2.1⟩)
          · exact Or.inl (by rw [h1.1]; exact h.2.1)
          · exact Or.inr (Or.inr ⟨h1.1, h.2.1⟩)
        · rintro (h1 | h1 | h1)
          · exact Or.inl (Or.inl h1)
          · exact Or.inr (Or.inl ⟨h1.1, Or.inl h1.2⟩)
          · exact Or.inl (Or.inr h1.1)
      · exact Iff.rfl
    · intro d hd
      obtain ⟨g1, g2⟩ := C53_get_all mc [] step l'
      by_cases hv : ∀ t ∈ l', ValidFor mc.kind t
      · obtain ⟨g3, g4⟩ := g2 hv
        rcases lt_or_ge |step| 1 with hs | hs
        · obtain ⟨g5, g6⟩ := g4 hs
          by_cases hall : ∀ k, Wanted l' k → ∃ o, metacalObs mc step k = .ok o
          · obtain ⟨d', hd', hn, hk, _⟩ := g5 hall
            rw [hd'] at hd
            injection hd with hd
            subst hd
            exact ⟨hn, fun k => (hk k).trans (hw k)⟩
          · push Not at hall
            obtain ⟨k, hk, hno⟩ := hall
            rcases hm : metacalObs mc step k with e | o'
            · obtain ⟨e', he'⟩ := g6 ⟨k, e, hk, hm⟩
              rw [he'] at hd; cases hd
            · exact absurd hm (hno o')
        · rw [g3 hs] at hd; cases hd
      · rw [g1 hv] at hd; cases hd

/-! ### metacal_bootstrap -/

/-- C55.  `metacal_bootstrap` fits every type once, in the order of the dictionary, and returns the results under the same
keys together with the observations fitted; an error of any fit is raised and nothing is returned. -/
theorem C55_bootstrap {V R : Type} (mcal : σ → σ × Except PyErr (Option (Dict V)))
    (boot : σ → V → σ × Except PyErr R) (st st1 : σ) (d : Dict V) (h : mcal st = (st1, .ok (some d))) :
    (metacalBootstrap mcal boot st).1 = (inOrder (fun s (p : String × V) => boot s p.2) d st1).1 ∧
    (∀ e, (inOrder (fun s (p : String × V) => boot s p.2) d st1).2 = .error e →
      (metacalBootstrap mcal boot st).2 = .error e) ∧
    (∀ rs, (inOrder (fun s (p : String × V) => boot s p.2) d st1).2 = .ok rs →
      ∃ res : Dict R, (metacalBootstrap mcal boot st).2 = .ok (res, d) ∧ res.keys = d.keys ∧ res.map Prod.snd = rs) := by
  have key : ∀ (d : Dict V) st1,
      (bootLoop boot d st1).1 = (inOrder (fun s (p : String × V) => boot s p.2) d st1).1 ∧
      (∀ e, (inOrder (fun s (p : String × V) => boot s p.2) d st1).2 = .error e → (bootLoop boot d st1).2 = .error e) ∧
      (∀ rs, (inOrder (fun s (p : String × V) => boot s p.2) d st1).2 = .ok rs →
        ∃ res : Dict R, (bootLoop boot d st1).2 = .ok res ∧ res.keys = d.keys ∧ res.map Prod.snd = rs) := by
    intro d
    induction d with
    | nil =>
        intro st1
        exact ⟨rfl, fun e h => (by cases h), fun rs h => by injection h with h; exact ⟨[], rfl, rfl, h⟩⟩
    | cons p d ih =>
        intro st1
        obtain ⟨k, v⟩ := p
        simp only [bootLoop, inOrder]
        rcases h1 : boot st1 v with ⟨s2, e | r⟩
        · exact ⟨rfl, fun e' h => (by cases h; rfl), fun rs h => by cases h⟩
        · simp only
          obtain ⟨i1, i2, i3⟩ := ih s2
          rcases h2 : inOrder (fun s (p : String × V) => boot s p.2) d s2 with ⟨s3, e | rs⟩
          · rw [h2] at i1 i2
            have : bootLoop boot d s2 = (s3, .error e) := Prod.ext i1 (i2 e rfl)
            rw [this]
            exact ⟨rfl, fun e' h => (by cases h; rfl), fun rs h => by cases h⟩
          · rw [h2] at i1 i3
            obtain ⟨res, hr, hk, hv⟩ := i3 rs rfl
            have : bootLoop boot d s2 = (s3, .ok res) := Prod.ext i1 hr
            rw [this]
            refine ⟨rfl, fun e' h => (by cases h), fun rs' h => ?_⟩
            injection h with h
            refine ⟨(k, r) :: res, rfl, ?_, ?_⟩
            · show k :: res.keys = k :: Dict.keys d
              rw [hk]
            · rw [← h]; simp [hv]
  obtain ⟨k1, k2, k3⟩ := key d st1
  unfold metacalBootstrap
  rw [h]
  refine ⟨k1, fun e he => ?_, fun rs hrs => ?_⟩
  · simp only [k2 e he]; rfl
  · obtain ⟨res, hr, hk, hv⟩ := k3 rs hrs
    exact ⟨res, by simp only [hr]; rfl, hk, hv⟩

/-! ### fixnoise -/

theorem addedWeight_spec (w nw : ℝ) : VarAdded w nw (addedWeight w nw) := by
  unfold VarAdded addedWeight
  constructor
  · intro h
    rw [if_neg]
    rintro ⟨h1, h2⟩
    rcases h with h | h
    · exact h1 h
    · exact h2 h
  · intro h1 h2
    rw [if_pos ⟨ne_of_gt h1, ne_of_gt h2⟩]
    rw [show (1.0 : ℝ) = 1 by norm_num]
    have : 0 < 1 / w + 1 / nw := by positivity
    exact ⟨by positivity, by rw [one_div_one_div]⟩

theorem rotateOne_ok {k3 : Bool} {o o' : MObs O X} (h : rotateOne k3 o = .ok o') :
    Square o.image ∧ o' = { o with image := if k3 then o.image.rot270 else o.image.rot90 } := by
  unfold rotateOne at h
  simp only at h
  by_cases hs : (if k3 = true then o.image.rot270 else o.image.rot90).nrow = o.image.nrow ∧
      (if k3 = true then o.image.rot270 else o.image.rot90).ncol = o.image.ncol
  · rw [if_pos hs] at h
    injection h with h
    refine ⟨?_, h.symm⟩
    have h1 := hs.1
    cases k3
    · exact h1.symm
    · exact h1.symm
  · rw [if_neg hs] at h; cases h

theorem rotateOne_iff (k3 : Bool) (o : MObs O X) :
    (Square o.image → rotateOne k3 o = .ok { o with image := if k3 then o.image.rot270 else o.image.rot90 }) ∧
    (¬ Square o.image → rotateOne k3 o = .error .assertion) := by
  unfold rotateOne Square
  simp only
  constructor
  · intro h
    rw [if_pos]
    cases k3
    · exact ⟨h.symm, h⟩
    · exact ⟨h.symm, h⟩
  · intro h
    rw [if_neg]
    rintro ⟨h1, _⟩
    cases k3
    · exact h h1.symm
    · exact h h1.symm

/-- C54.  `rot90` with `k=1` turns the image, and with `k=3` afterwards turns it back to exactly the same pixels. -/
theorem C54_rotation_undone (im : Image) :
    Turned im im.rot90 ∧ Turned im.rot270 im ∧
    im.rot90.rot270.nrow = im.nrow ∧ im.rot90.rot270.ncol = im.ncol ∧
    ∀ r c, r < im.nrow → c < im.ncol → im.rot90.rot270.get r c = im.get r c := by
  refine ⟨⟨rfl, rfl, fun r c _ _ => rfl⟩, ⟨rfl, rfl, fun r c hr hc => ?_⟩, rfl, rfl, fun r c hr hc => ?_⟩
  · show im.get r c = im.get (im.nrow - 1 - (im.nrow - 1 - r)) c
    have : r < im.nrow := hr
    congr 1; omega
  · show im.get r (im.ncol - 1 - (im.ncol - 1 - c)) = _
    congr 1; omega

/-- C54.  One observation: the turned-back noise image is added pixel by pixel, the variances add where both weights are
positive, a weight stays as it is where either weight is zero, the previous image and weights are kept beside, the rest is
unchanged. -/
theorem C54_combined (o n n' o' : MObs O X) (h1 : rotateOne true n = .ok n') (h2 : doAddOne o n' = .ok o') :
    Combined o n o' := by
  obtain ⟨hsq, rfl⟩ := rotateOne_ok h1
  unfold doAddOne at h2
  by_cases hs : (({ n with image := if true then n.image.rot270 else n.image.rot90 } : MObs O X).image.nrow = o.image.nrow ∧
      ({ n with image := if true then n.image.rot270 else n.image.rot90 } : MObs O X).image.ncol = o.image.ncol ∧
      ({ n with image := if true then n.image.rot270 else n.image.rot90 } : MObs O X).weight.nrow = o.weight.nrow ∧
      ({ n with image := if true then n.image.rot270 else n.image.rot90 } : MObs O X).weight.ncol = o.weight.ncol)
  · rw [if_pos hs] at h2
    injection h2 with h2
    subst h2
    exact ⟨rfl, rfl, fun r c _ _ => rfl, fun r c => addedWeight_spec _ _, ⟨rfl, rfl⟩, rfl, ⟨rfl, rfl, rfl⟩⟩
  · rw [if_neg hs] at h2; cases h2

/-- C54.  With noise of the same weight map the weights are halved. -/
theorem C54_equal_weights_halve (w w' : ℝ) (h : VarAdded w w w') (hw : 0 ≤ w) : w' = w / 2 := by
  rcases hw.eq_or_lt with h0 | h0
  · rw [h.1 (Or.inl h0.symm), ← h0]; simp
  · obtain ⟨h1, h2⟩ := h.2 h0 h0
    have hne : w ≠ 0 := ne_of_gt h0
    have hne' : w' ≠ 0 := ne_of_gt h1
    field_simp at h2
    linarith

theorem forList_ok {f : MObs O X → Except PyErr (MObs O X)} {l l' : List (MObs O X)} (h : forList f l = .ok l') :
    List.Forall₂ (fun o o' => f o = .ok o') l l' := by
  induction l generalizing l' with
  | nil => injection h with h; subst h; exact .nil
  | cons o os ih =>
      unfold forList at h
      obtain ⟨o', h1, h⟩ := exBind_ok h
      obtain ⟨os', h2, h⟩ := exMap_ok h
      subst h
      exact .cons h1 (ih h2)

theorem forBands_ok {MD : Type} {f : MObs O X → Except PyErr (MObs O X)} {l l' : List (MD × List (MObs O X))}
    (h : forBands f l = .ok l') :
    List.Forall₂ (fun b b' => b'.1 = b.1 ∧ List.Forall₂ (fun o o' => f o = .ok o') b.2 b'.2) l l' := by
  induction l generalizing l' with
  | nil => injection h with h; subst h; exact .nil
  | cons b bs ih =>
      obtain ⟨m, b⟩ := b
      unfold forBands at h
      obtain ⟨o', h1, h⟩ := exBind_ok h
      obtain ⟨os', h2, h⟩ := exMap_ok h
      subst h
      exact .cons ⟨rfl, forList_ok h1⟩ (ih h2)

theorem doAddList_combined {l n n' l' : List (MObs O X)}
    (hr : List.Forall₂ (fun o o' => rotateOne true o = .ok o') n n') (h : doAddList l n' = .ok l') :
    CombinedList l n l' := by
  induction l generalizing n n' l' with
  | nil =>
      rw [doAddList] at h
      injection h with h; subst h
      exact ⟨rfl, fun i h _ => absurd h (by simp)⟩
  | cons o os ih =>
      cases hr with
      | nil => cases h
      | @cons a b as bs h1 h2 =>
          unfold doAddList at h
          obtain ⟨o', h3, h⟩ := exBind_ok h
          obtain ⟨os', h4, h⟩ := exMap_ok h
          subst h
          obtain ⟨i1, i2⟩ := ih h2 h4
          refine ⟨by simp [i1], fun i hi hi' => ?_⟩
          rcases i with _ | i
          · exact ⟨by simp, C54_combined _ _ _ _ h1 h3⟩
          · obtain ⟨hn, hc⟩ := i2 i (by simpa using hi) (by simpa using hi')
            exact ⟨by simpa using hn, hc⟩

theorem doAddBands_combined {l n n' l' : List (Unit × List (MObs O X))}
    (hr : List.Forall₂ (fun b b' => b'.1 = b.1 ∧ List.Forall₂ (fun o o' => rotateOne true o = .ok o') b.2 b'.2) n n')
    (h : doAddBands l n' = .ok l') :
    l'.length = l.length ∧
      ∀ i (h : i < l.length) (h' : i < l'.length), ∃ hn : i < n.length, CombinedList l[i].2 n[i].2 l'[i].2 := by
  induction l generalizing n n' l' with
  | nil =>
      rw [doAddBands] at h
      injection h with h; subst h
      exact ⟨rfl, fun i h _ => absurd h (by simp)⟩
  | cons o os ih =>
      cases hr with
      | nil => cases h
      | @cons a b as bs h1 h2 =>
          unfold doAddBands at h
          obtain ⟨o', h3, h⟩ := exBind_ok h
          obtain ⟨os', h4, h⟩ := exMap_ok h
          subst h
          obtain ⟨i1, i2⟩ := ih h2 h4
          refine ⟨by simp [i1], fun i hi hi' => ?_⟩
          rcases i with _ | i
          · exact ⟨by simp, doAddList_combined h1.2 h3⟩
          · obtain ⟨hn, hc⟩ := i2 i (by simpa using hi) (by simpa using hi')
            exact ⟨by simpa using hn, hc⟩

theorem doAddAny_combined {i n n' i' : ObsIn (MObs O X) Unit} (hi : i ≠ .other) (hr : rotateAll true n = .ok n')
    (h : doAddAny i n' = .ok i') : CombinedAll i n i' := by
  rcases n with o | ⟨m, l⟩ | ⟨m, l⟩ | _
  · obtain ⟨o', h1, hr⟩ := exMap_ok hr
    subst hr
    rcases i with a | a | a | _
    · obtain ⟨x, h2, h⟩ := exMap_ok h
      subst h
      exact C54_combined _ _ _ _ h1 h2
    · cases h
    · cases h
    · exact absurd rfl hi
  · obtain ⟨o', h1, hr⟩ := exMap_ok hr
    subst hr
    rcases i with a | a | a | _
    · cases h
    · obtain ⟨x, h2, h⟩ := exMap_ok h
      subst h
      exact doAddList_combined (forList_ok h1) h2
    · cases h
    · exact absurd rfl hi
  · obtain ⟨o', h1, hr⟩ := exMap_ok hr
    subst hr
    rcases i with a | a | a | _
    · cases h
    · cases h
    · obtain ⟨x, h2, h⟩ := exMap_ok h
      subst h
      exact doAddBands_combined (forBands_ok h1) h2
    · exact absurd rfl hi
  · injection hr with hr
    subst hr
    rcases i with a | a | a | _
    · cases h
    · cases h
    · cases h
    · exact absurd rfl hi

theorem fixLoop_spec (nd d d' : Dict (ObsIn (MObs O X) Unit)) (hd : ∀ p ∈ d, p.2 ≠ .other) (h : fixLoop nd d = .ok d') :
    d'.keys = d.keys ∧ ∀ k t, d.get? k = some t → ∃ nt t', nd.get? k = some nt ∧ d'.get? k = some t' ∧
      CombinedAll t nt t' := by
  induction d generalizing d' with
  | nil =>
      injection h with h; subst h
      exact ⟨rfl, fun k t h => by simp [Dict.get?] at h⟩
  | cons p d ih =>
      obtain ⟨k, i⟩ := p
      unfold fixLoop at h
      rcases hn : nd.get? k with _ | n
      · rw [hn] at h; cases h
      · rw [hn] at h
        simp only at h
        obtain ⟨n', h1, h⟩ := exBind_ok h
        obtain ⟨i', h2, h⟩ := exBind_ok h
        obtain ⟨dd, h3, h⟩ := exMap_ok h
        subst h
        obtain ⟨ik, ig⟩ := ih dd (fun p hp => hd p (List.mem_cons_of_mem _ hp)) h3
        refine ⟨?_, fun k' t ht => ?_⟩
        · show k :: Dict.keys dd = k :: Dict.keys d
          rw [ik]
        · rw [dict_get_cons] at ht ⊢
          by_cases hkk : k' = k
          · rw [if_pos hkk] at ht ⊢
            injection ht with ht
            subst ht hkk
            exact ⟨n, i', hn, rfl, doAddAny_combined (hd _ List.mem_cons_self) h1 h2⟩
          · rw [if_neg hkk] at ht ⊢
            exact ig k' t ht

theorem getAllPlain_not_other (one : σ → Ob → σ × Except PyErr (Dict Ob)) {MD : Type} (arg : ObsIn Ob MD) (st st' : σ)
    (d : Dict (ObsIn Ob Unit)) (h : getAllPlain one arg st = (st', .ok (some d))) : ∀ p ∈ d, p.2 ≠ .other := by
  have hm : ∀ {β : Type} (f : β → ObsIn Ob Unit) (dd : Dict β), (∀ b, f b ≠ .other) → ∀ p ∈ dd.mapVals f, p.2 ≠ .other := by
    intro β f dd hf p hp
    obtain ⟨q, _, rfl⟩ := List.mem_map.1 hp
    exact hf _
  rcases arg with o | ⟨m, l⟩ | ⟨m, l⟩ | _
  · have h2 : (one st o).2.map (fun d => some (d.mapVals .obs)) = .ok (some d) := (Prod.ext_iff.1 h).2
    obtain ⟨d0, _, h2⟩ := exMap_ok h2
    injection h2 with h2
    rw [← h2]
    exact hm _ _ (by intro b h; cases h)
  · have h2 : (mcListLoop one l st none).2.map (fun d => d.map fun d => d.mapVals (.list ())) = .ok (some d) :=
      (Prod.ext_iff.1 h).2
    obtain ⟨d0, _, h2⟩ := exMap_ok h2
    rcases d0 with _ | d0
    · cases h2
    · injection h2 with h2
      rw [← h2]
      exact hm _ _ (by intro b h; cases h)
  · have h2 : (mcBandLoop one (l.map Prod.snd) st none).2.map
        (fun d => d.map fun d => d.mapVals fun ls => .mb () (ls.map fun l => ((), l))) = .ok (some d) :=
      (Prod.ext_iff.1 h).2
    obtain ⟨d0, _, h2⟩ := exMap_ok h2
    rcases d0 with _ | d0
    · cases h2
    · injection h2 with h2
      rw [← h2]
      exact hm _ _ (by intro b h; cases h)
  · cases h

/-- C54.  Metacal with fixnoise, whole: noise observations are made with the structure of the input and turned by 90
degrees, metacal is applied to the input and then to the noise, and for every type the result has the nesting and order of
plain metacal, each observation being the plain one with the noise one of the same place, turned back, added to it. -/
theorem C54_fixnoise (one : σ → MObs O X → σ × Except PyErr (Dict (MObs O X))) (src : NoiseSource σ O X) {MD : Type}
    (arg : ObsIn (MObs O X) MD) (st st' : σ) (d' : Dict (ObsIn (MObs O X) Unit))
    (h : getAllFixnoise one src arg st = (st', .ok d')) :
    ∃ st1 st2 noise turned d nd, src.make arg st = (st1, .ok noise) ∧ rotateAll false noise = .ok turned ∧
      getAllPlain one arg st1 = (st2, .ok (some d)) ∧ getAllPlain one turned st2 = (st', .ok (some nd)) ∧
      d'.keys = d.keys ∧
      ∀ k t, d.get? k = some t → ∃ nt t', nd.get? k = some nt ∧ d'.get? k = some t' ∧ CombinedAll t nt t' := by
  unfold getAllFixnoise at h
  rcases h1 : src.make arg st with ⟨s1, e | noise⟩
  · rw [h1] at h; cases h
  rw [h1] at h
  simp only at h
  rcases h2 : rotateAll false noise with e | turned
  · rw [h2] at h; cases h
  rw [h2] at h
  simp only at h
  rcases h3 : getAllPlain one arg s1 with ⟨s2, e | d⟩
  · rw [h3] at h; cases h
  rw [h3] at h
  simp only at h
  rcases h4 : getAllPlain one turned s2 with ⟨s3, e | nd⟩
  · rw [h4] at h; cases h
  rw [h4] at h
  rcases d with _ | d
  · cases h
  rcases nd with _ | nd
  · cases h
  simp only [Prod.mk.injEq] at h
  obtain ⟨rfl, h⟩ := h
  obtain ⟨hk, hg⟩ := fixLoop_spec nd d d' (getAllPlain_not_other one arg _ _ d h3) h
  exact ⟨s1, s2, noise, turned, d, nd, rfl, h2, h3, h4, hk, hg⟩

theorem forList_rot (k3 : Bool) (l : List (MObs O X)) :
    ((∀ o ∈ l, Square o.image) → ∃ l', forList (rotateOne k3) l = .ok l') ∧
    ((∃ o ∈ l, ¬ Square o.image) → forList (rotateOne k3) l = .error .assertion) := by
  induction l with
  | nil => exact ⟨fun _ => ⟨[], rfl⟩, fun ⟨o, h, _⟩ => by cases h⟩
  | cons o os ih =>
      obtain ⟨r1, r2⟩ := rotateOne_iff k3 o
      unfold forList
      constructor
      · intro h
        obtain ⟨l', hl⟩ := ih.1 fun o' ho' => h o' (List.mem_cons_of_mem _ ho')
        rw [r1 (h o List.mem_cons_self), hl]
        exact ⟨_, rfl⟩
      · rintro ⟨o', ho', hs⟩
        by_cases hso : Square o.image
        · rw [r1 hso]
          have : o' ∈ os := by
            rcases List.mem_cons.1 ho' with h | h
            · rw [h] at hs; exact absurd hso hs
            · exact h
          simp only [Except.bind]
          rw [ih.2 ⟨o', this, hs⟩]; rfl
        · rw [r2 hso]; rfl

theorem forBands_rot (k3 : Bool) {MD : Type} (l : List (MD × List (MObs O X))) :
    ((∀ b ∈ l, ∀ o ∈ b.2, Square o.image) → ∃ l', forBands (rotateOne k3) l = .ok l') ∧
    ((∃ b ∈ l, ∃ o ∈ b.2, ¬ Square o.image) → forBands (rotateOne k3) l = .error .assertion) := by
  induction l with
  | nil => exact ⟨fun _ => ⟨[], rfl⟩, fun ⟨o, h, _⟩ => by cases h⟩
  | cons b bs ih =>
      obtain ⟨m, b⟩ := b
      obtain ⟨r1, r2⟩ := forList_rot k3 b
      unfold forBands
      constructor
      · intro h
        obtain ⟨l', hl⟩ := ih.1 fun o' ho' => h o' (List.mem_cons_of_mem _ ho')
        obtain ⟨b', hb⟩ := r1 (h (m, b) List.mem_cons_self)
        rw [hb, hl]
        exact ⟨_, rfl⟩
      · rintro ⟨b', hb', o, ho, hs⟩
        by_cases hso : ∀ o ∈ b, Square o.image
        · obtain ⟨b2, hb2⟩ := r1 hso
          rw [hb2]
          have : b' ∈ bs := by
            rcases List.mem_cons.1 hb' with h | h
            · rw [h] at ho; exact absurd (hso o ho) hs
            · exact h
          simp only [Except.bind]
          rw [ih.2 ⟨b', this, o, ho, hs⟩]; rfl
        · push Not at hso
          obtain ⟨o2, ho2, hs2⟩ := hso
          rw [r2 ⟨o2, ho2, hs2⟩]; rfl

/-- C54.  `get_all_metacal`: with fixnoise it is the combination of metacal on the input and metacal on the turned noise, and
never the empty answer; without it metacal is applied to the input alone and no noise is drawn. -/
theorem C54_get_all (one : σ → MObs O X → σ × Except PyErr (Dict (MObs O X))) (src : NoiseSource σ O X) {MD : Type}
    (arg : ObsIn (MObs O X) MD) (st st' : σ) (r : Option (Dict (ObsIn (MObs O X) Unit)))
    (h : getAllMetacal one (some src) arg st = (st', .ok r)) :
    ∃ d', r = some d' ∧ ∃ st1 st2 noise turned d nd, src.make arg st = (st1, .ok noise) ∧
      rotateAll false noise = .ok turned ∧ getAllMetacal one none arg st1 = (st2, .ok (some d)) ∧
      getAllMetacal one none turned st2 = (st', .ok (some nd)) ∧ d'.keys = d.keys ∧
      ∀ k t, d.get? k = some t → ∃ nt t', nd.get? k = some nt ∧ d'.get? k = some t' ∧ CombinedAll t nt t' := by
  rcases hx : getAllFixnoise one src arg st with ⟨s1, e | d'⟩
  · simp only [getAllMetacal, hx, Except.map] at h
    cases h
  · simp only [getAllMetacal, hx, Except.map, Prod.mk.injEq, Except.ok.injEq] at h
    obtain ⟨rfl, rfl⟩ := h
    exact ⟨d', rfl, C54_fixnoise one src arg st s1 d' hx⟩

/-- C54.  Fixnoise works on square images only: if some image of the noise observation is not square the call raises
AssertionError before any metacal image is made. -/
theorem C54_square_only (one : σ → MObs O X → σ × Except PyErr (Dict (MObs O X))) (src : NoiseSource σ O X) {MD : Type}
    (arg noise : ObsIn (MObs O X) MD) (st st1 : σ) (hsrc : src.make arg st = (st1, .ok noise)) :
    ((∃ o ∈ noise.flat, ¬ Square o.image) → getAllFixnoise one src arg st = (st1, .error .assertion)) ∧
    ((∀ o ∈ noise.flat, Square o.image) → ∃ turned, rotateAll false noise = .ok turned) := by
  constructor
  · rintro ⟨o, ho, hs⟩
    have hrot : rotateAll false noise = .error .assertion := by
      rcases noise with n | ⟨m, l⟩ | ⟨m, l⟩ | _
      · have : o = n := by simpa [ObsIn.flat] using ho
        subst this
        rw [rotateAll]; rw [(rotateOne_iff false o).2 hs]; rfl
      · rw [rotateAll]; rw [(forList_rot false l).2 ⟨o, ho, hs⟩]; rfl
      · rw [rotateAll]
        have : ∃ b ∈ l, ∃ o ∈ b.2, ¬ Square o.image := by
          simp only [ObsIn.flat, List.mem_flatten, List.mem_map] at ho
          obtain ⟨b, ⟨⟨m', b'⟩, hb, rfl⟩, ho⟩ := ho
          exact ⟨_, hb, o, ho, hs⟩
        rw [(forBands_rot false l).2 this]; rfl
      · cases ho
    unfold getAllFixnoise
    rw [hsrc]
    simp only [hrot]
  · intro h
    rcases noise with n | ⟨m, l⟩ | ⟨m, l⟩ | _
    · rw [rotateAll]
      rw [(rotateOne_iff false n).1 (h n (by simp [ObsIn.flat]))]
      exact ⟨_, rfl⟩
    · obtain ⟨l', hl⟩ := (forList_rot false l).1 h
      rw [rotateAll]; rw [hl]
      exact ⟨_, rfl⟩
    · obtain ⟨l', hl⟩ := (forBands_rot false l).1 fun b hb o ho => h o (by
        simp only [ObsIn.flat, List.mem_flatten, List.mem_map]
        exact ⟨b.2, ⟨b, hb, rfl⟩, ho⟩)
      rw [rotateAll]; rw [hl]
      exact ⟨_, rfl⟩
    · exact ⟨_, rfl⟩

/-- C54.  Using the noise images of the observations: the noise observation is the observation with its noise image in
place of the image; one without a noise image raises AttributeError. -/
theorem C54_noise_image (o : MObs O X) :
    (o.noise = none → noiseOne o = .error .attribute) ∧
    (∀ n, o.noise = some n → n.nrow = o.image.nrow → n.ncol = o.image.ncol → noiseOne o = .ok { o with image := n }) := by
  unfold noiseOne
  constructor
  · intro h; rw [h]
  · intro n h h1 h2
    rw [h]
    simp only
    rw [if_pos ⟨h1, h2⟩]

/-! ### Concrete cases -/

section Examples

/-- A square observation with noise, a positive weight and a zero weight. -/
noncomputable def exObs : MObs Unit Unit :=
  { image := ⟨2, 2, fun r c => (r : ℝ) + 10 * c⟩
    weight := ⟨2, 2, fun r _ => if r = 0 then 4 else 0⟩
    noise := some ⟨2, 2, fun r c => (r : ℝ) - c⟩
    psf := ⟨⟨1, 1, fun _ _ => 1⟩, ⟨1, 1, fun _ _ => 1⟩, (0, 0), none, ()⟩
    orig := none
    rest := () }

/-- A metacal stand-in that gives the two types back unchanged. -/
def exOne (st : Unit) (o : MObs Unit Unit) : Unit × Except PyErr (Dict (MObs Unit Unit)) :=
  (st, .ok [("noshear", o), ("1p", o)])

example : UniformKeys exOne (fun _ => True) (fun k => k = "noshear" ∨ k = "1p") := by
  intro st a _
  refine ⟨trivial, fun d h => ?_⟩
  injection h with h
  subst h
  refine ⟨?_, fun k => ?_⟩
  · simp [Dict.keys]
  · simp [Dict.keys]

/-- The whole of fixnoise on a list of two observations runs through. -/
example : ∃ d', getAllFixnoise exOne .images (.list () [exObs, exObs]) () = ((), .ok d') ∧ d'.keys = ["noshear", "1p"] := by
  simp [getAllFixnoise, NoiseSource.make, replaceWithNoise, forList, noiseOne, exObs, Except.bind, Except.map, rotateAll,
    rotateOne, Image.rot90, getAllPlain, mcListLoop, exOne, initDict, appendEach, Dict.get?, Dict.mapVals, fixLoop,
    Image.rot270, doAddAny, doAddList, doAddOne, Dict.keys]

end Examples

end Ngmix.Props
