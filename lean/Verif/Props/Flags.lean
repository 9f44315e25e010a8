import Verif.Model.Flags
import Mathlib.Data.List.Basic
import Mathlib.Data.Nat.Bitwise
import Mathlib.Order.Basic
import Mathlib.Tactic.IntervalCases
import Mathlib.Data.List.Sort

/-!
# Property C38: flag strings
-/

namespace Ngmix.Props

open Ngmix Ngmix.Flags

/-- Spec: the name shown for a bit: the table's name, or an explicit "bit 2**k". -/
def bitLabel (nameMap : List (ℕ × String)) (k : ℕ) : String :=
  (nameMap.lookup (2 ^ k)).getD ("bit 2**" ++ toString k)

theorem strStep_eq (nm : List (ℕ × String)) (val : ℕ) (acc : List String) (k : ℕ) :
    strStep nm val acc k = acc ++ (if val.testBit k then [bitLabel nm k] else []) := by
  have hb : (val &&& 2 ^ k ≠ 0) ↔ val.testBit k = true := by
    rw [Nat.and_two_pow]
    cases val.testBit k <;> simp
  unfold strStep
  simp only [hb]
  by_cases h : val.testBit k = true
  · simp only [h, if_true]
    unfold bitLabel bitName
    cases nm.lookup (2 ^ k) <;> rfl
  · simp [h]

theorem foldl_strStep (nm : List (ℕ × String)) (val : ℕ) (l : List ℕ) (acc : List String) :
    l.foldl (strStep nm val) acc = acc ++ (l.filter (fun k => val.testBit k)).map (bitLabel nm) := by
  induction l generalizing acc with
  | nil => simp
  | cons k l ih =>
    rw [List.foldl_cons, ih, strStep_eq]
    by_cases h : val.testBit k = true
    · rw [if_pos h, List.filter_cons_of_pos h]; simp
    · rw [if_neg h, List.filter_cons_of_neg h]; simp

/-- C38: for every value below `2^31` and every name table, the result is the "|"-join of the
names of exactly the set bits, in increasing bit order. -/
theorem C38_lists_set_bits (val : ℕ) (h : val < 2 ^ 31) (nm : List (ℕ × String)) :
    ∃ bits : List ℕ, bits.Pairwise (· < ·) ∧ (∀ k, k ∈ bits ↔ val.testBit k = true) ∧
      getFlagsStr val nm = .ok ("|".intercalate (bits.map (bitLabel nm))) := by
  refine ⟨(List.range 31).filter (fun k => val.testBit k), ?_, ?_, ?_⟩
  · exact List.Pairwise.filter _ List.pairwise_lt_range
  · intro k
    simp only [List.mem_filter, List.mem_range, and_iff_right_iff_imp]
    intro hk
    by_contra hge
    have : val < 2 ^ k := lt_of_lt_of_le h (Nat.pow_le_pow_right (by norm_num) (by omega))
    rw [Nat.testBit_lt_two_pow this] at hk
    exact absurd hk (by simp)
  · unfold getFlagsStr
    rw [if_neg (by omega), if_neg (by omega), foldl_strStep]
    simp

/-- C38: exactly the negative values raise `ValueError`. -/
theorem C38_negative_iff (val : ℤ) (nm : List (ℕ × String)) :
    getFlagsStr val nm = .error .value ↔ val < 0 := by
  unfold getFlagsStr
  split_ifs <;> simp_all

/-- C38: all flag constants are distinct powers of two, and the aliases are what they say. -/
theorem C38_flags_distinct_bits :
    (Flags.NAME_MAP.map Prod.fst).Nodup ∧ (∀ f ∈ Flags.NAME_MAP.map Prod.fst, ∃ k < 16, f = 2 ^ k) ∧
    (∀ k < 16, 2 ^ k ∈ Flags.NAME_MAP.map Prod.fst) ∧
    EM_RANGE_ERROR = GMIX_RANGE_ERROR ∧ EM_MAXITER = MAXITER ∧ BAD_VAR = NONPOS_VAR := by
  refine ⟨by decide, ?_, by decide, rfl, rfl, rfl⟩
  decide

theorem bitLabel_props : ∀ k < 31, '|' ∉ (bitLabel NAME_MAP k).toList ∧ bitLabel NAME_MAP k ≠ "" := by
  decide +kernel

theorem bitLabel_inj : ∀ k < 31, ∀ l < 31, bitLabel NAME_MAP k = bitLabel NAME_MAP l → k = l := by
  decide +kernel

/-- C38: with the default table the string determines the flag value: two different values below
`2^31` never give the same string (no flag is lost or confused). -/
theorem C38_injective (a b : ℕ) (ha : a < 2 ^ 31) (hb : b < 2 ^ 31)
    (h : getFlagsStr a = getFlagsStr b) : a = b := by
  obtain ⟨la, -, hla, ea⟩ := C38_lists_set_bits a ha NAME_MAP
  obtain ⟨lb, -, hlb, eb⟩ := C38_lists_set_bits b hb NAME_MAP
  have lt31 : ∀ (v : ℕ), v < 2 ^ 31 → ∀ k, v.testBit k = true → k < 31 := by
    intro v hv k hk
    by_contra hge
    have : v < 2 ^ k := lt_of_lt_of_le hv (Nat.pow_le_pow_right (by norm_num) (by omega))
    rw [Nat.testBit_lt_two_pow this] at hk
    exact absurd hk (by simp)
  rw [ea, eb] at h
  have hs : "|".intercalate (la.map (bitLabel NAME_MAP)) = "|".intercalate (lb.map (bitLabel NAME_MAP)) := by
    injection h
  have key : ∀ l : List ℕ, (∀ k ∈ l, k < 31) → ∀ s ∈ l.map (bitLabel NAME_MAP), '|' ∉ s.toList := by
    intro l hl s hs
    obtain ⟨k, hk, rfl⟩ := List.mem_map.1 hs
    exact (bitLabel_props k (hl k hk)).1
  have hA : ∀ k ∈ la, k < 31 := fun k hk => lt31 a ha k ((hla k).1 hk)
  have hB : ∀ k ∈ lb, k < 31 := fun k hk => lt31 b hb k ((hlb k).1 hk)
  have e1 := String.toList_split_intercalate (c := '|') (key la hA)
  have e2 := String.toList_split_intercalate (c := '|') (key lb hB)
  have hsing : String.singleton '|' = "|" := by decide
  rw [hsing] at e1 e2
  rw [hs, e2] at e1
  have hmap : lb.map (bitLabel NAME_MAP) = la.map (bitLabel NAME_MAP) := by
    by_cases h1 : la = [] <;> by_cases h2 : lb = []
    · rw [h1, h2]
    · exfalso
      simp only [List.map_eq_nil_iff, h1, h2, if_true, if_false] at e1
      cases lb with
      | nil => exact h2 rfl
      | cons k l =>
        simp only [List.map_cons] at e1
        have : bitLabel NAME_MAP k = "" := by injection e1
        exact (bitLabel_props k (hB k (by simp))).2 this
    · exfalso
      simp only [List.map_eq_nil_iff, h1, h2, if_true, if_false] at e1
      cases la with
      | nil => exact h1 rfl
      | cons k l =>
        simp only [List.map_cons] at e1
        have : bitLabel NAME_MAP k = "" := by injection e1.symm
        exact (bitLabel_props k (hA k (by simp))).2 this
    · simpa only [List.map_eq_nil_iff, h1, h2, if_false] using e1
  have hmem : ∀ k, k < 31 → (k ∈ la ↔ k ∈ lb) := by
    intro k hk
    have : bitLabel NAME_MAP k ∈ la.map (bitLabel NAME_MAP) ↔
        bitLabel NAME_MAP k ∈ lb.map (bitLabel NAME_MAP) := by rw [hmap]
    constructor
    · intro hka
      obtain ⟨k', hk', he⟩ := List.mem_map.1 (this.1 (List.mem_map_of_mem hka))
      rwa [← bitLabel_inj k' (hB k' hk') k hk he]
    · intro hkb
      obtain ⟨k', hk', he⟩ := List.mem_map.1 (this.2 (List.mem_map_of_mem hkb))
      rwa [← bitLabel_inj k' (hA k' hk') k hk he]
  apply Nat.eq_of_testBit_eq
  intro k
  by_cases hk : k < 31
  · have := hmem k hk
    rw [hla, hlb] at this
    cases hA' : a.testBit k <;> cases hB' : b.testBit k <;> simp_all
  · have hA' : a.testBit k = false := by
      by_contra hc; exact hk (lt31 a ha k (by simpa using hc))
    have hB' : b.testBit k = false := by
      by_contra hc; exact hk (lt31 b hb k (by simpa using hc))
    rw [hA', hB']

/-- C38 counterexample (code as it is): a valid `uint32` value with only bit 31 set gets the
empty string, the same as no flag at all. -/
theorem C38_bit31_dropped : getFlagsStr (2 ^ 31) = getFlagsStr 0 ∧ getFlagsStr 0 = .ok "" := by
  decide +kernel

/-- Concrete values: an unknown and two known bits. -/
example : getFlagsStr (1 + 8 + 2 ^ 20) = .ok "no attempt|T <= 0|bit 2**20" := by decide +kernel

example : (1 + 8 + 2 ^ 20 : ℕ) < 2 ^ 31 := by norm_num

end Ngmix.Props
