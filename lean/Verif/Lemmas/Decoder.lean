import Verif.Spec.Database

/-!
# Facts about the decoder table, checked by the kernel over the whole table
-/

namespace PyBSM

open Spec

/-- Within each haze code the rows are strictly increasing in (altitude, range). -/
def chkSorted : Nat → Nat → List DecRow → Bool
  | _, _, [] => true
  | k1, k2, r :: t =>
    let k := r.altDm * 1000000 + r.rangeM + 1
    Nat.blt r.rangeM 1000000 &&
    bif Nat.beq r.haze 1 then Nat.blt k1 k && chkSorted k k2 t
    else Nat.beq r.haze 2 && (Nat.blt k2 k && chkSorted k1 k t)

theorem decoder_sorted : chkSorted 0 0 decoderTable = true := by decide +kernel

/-- The key of a row inside its haze code. -/
def DecRow.key (r : DecRow) : Nat := r.altDm * 1000000 + r.rangeM + 1

theorem chkSorted_spec : ∀ (l : List DecRow) (k1 k2 : Nat), chkSorted k1 k2 l = true →
    (∀ r ∈ l, r.rangeM < 1000000 ∧ (r.haze = 1 ∧ k1 < r.key ∨ r.haze = 2 ∧ k2 < r.key)) ∧
    l.Pairwise (fun r s => r.haze = s.haze → r.key < s.key) := by
  intro l
  induction l with
  | nil => intro _ _ _; simp
  | cons r t ih =>
    intro k1 k2 h
    simp only [chkSorted, Bool.and_eq_true, Nat.blt_eq] at h
    obtain ⟨hr, h⟩ := h
    by_cases h1 : r.haze = 1
    · rw [show Nat.beq r.haze 1 = true from by simp [h1]] at h
      simp only [cond_true, Bool.and_eq_true, Nat.blt_eq] at h
      obtain ⟨ha, hb⟩ := ih _ _ h.2
      refine ⟨?_, List.pairwise_cons.mpr ⟨?_, hb⟩⟩
      · intro s hs
        rcases List.mem_cons.mp hs with rfl | hs
        · exact ⟨hr, Or.inl ⟨h1, h.1⟩⟩
        · obtain ⟨h3, h4⟩ := ha s hs
          refine ⟨h3, ?_⟩
          rcases h4 with h4 | h4
          · exact Or.inl ⟨h4.1, lt_trans h.1 h4.2⟩
          · exact Or.inr h4
      · intro s hs he
        rcases (ha s hs).2 with h4 | h4
        · exact h4.2
        · omega
    · rw [show Nat.beq r.haze 1 = false from Bool.eq_false_iff.mpr (fun hb => h1 (Nat.eq_of_beq_eq_true hb))] at h
      simp only [cond_false, Bool.and_eq_true, Nat.blt_eq, Nat.beq_eq] at h
      obtain ⟨ha, hb⟩ := ih _ _ h.2.2
      refine ⟨?_, List.pairwise_cons.mpr ⟨?_, hb⟩⟩
      · intro s hs
        rcases List.mem_cons.mp hs with rfl | hs
        · exact ⟨hr, Or.inr ⟨h.1, h.2.1⟩⟩
        · obtain ⟨h3, h4⟩ := ha s hs
          refine ⟨h3, ?_⟩
          rcases h4 with h4 | h4
          · exact Or.inl h4
          · exact Or.inr ⟨h4.1, lt_trans h.2.1 h4.2⟩
      · intro s hs he
        rcases (ha s hs).2 with h4 | h4
        · omega
        · exact h4.2

/-- Keys are unique. -/
theorem decoder_unique {r s : DecRow} (hr : r ∈ decoderTable) (hs : s ∈ decoderTable)
    (hh : r.haze = s.haze) (ha : r.altDm = s.altDm) (hg : r.rangeM = s.rangeM) : r = s := by
  have h := (chkSorted_spec _ _ _ decoder_sorted).2
  have hk : r.key = s.key := by simp [DecRow.key, ha, hg]
  rw [List.pairwise_iff_getElem] at h
  obtain ⟨i, hi, rfl⟩ := List.mem_iff_getElem.mp hr
  obtain ⟨j, hj, rfl⟩ := List.mem_iff_getElem.mp hs
  rcases lt_trichotomy i j with hij | rfl | hij
  · exact absurd hk (h i j hi hj hij hh).ne
  · rfl
  · exact absurd hk (h j i hj hi hij hh.symm).ne'

theorem decoder_haze {r : DecRow} (hr : r ∈ decoderTable) : r.haze = 1 ∨ r.haze = 2 := by
  rcases ((chkSorted_spec _ _ _ decoder_sorted).1 r hr).2 with h | h
  · exact Or.inl h.1
  · exact Or.inr h.1

/-- The ground ranges the table lists for a haze code and an altitude. -/
def rangesOf (h a : Nat) : List Nat :=
  (decoderTable.filter fun r => Nat.beq r.haze h && Nat.beq r.altDm a).map (·.rangeM)

/-- At every altitude of `maxRangeAt` the table lists exactly the grid ranges up to the maximum. -/
theorem rangesOf_grid : ∀ h ∈ [1, 2], ∀ p ∈ maxRangeAt,
    rangesOf h p.1 = gridRangesNat.filter (fun g => Nat.ble g p.2) := by
  decide +kernel

theorem row_iff_range {h a g : Nat} :
    (∃ r ∈ decoderTable, r.haze = h ∧ r.altDm = a ∧ r.rangeM = g) ↔ g ∈ rangesOf h a := by
  simp only [rangesOf, List.mem_map, List.mem_filter, Bool.and_eq_true, Nat.beq_eq]
  constructor
  · rintro ⟨r, hr, h1, h2, h3⟩; exact ⟨r, ⟨hr, h1, h2⟩, h3⟩
  · rintro ⟨r, ⟨hr, h1, h2⟩, h3⟩; exact ⟨r, hr, h1, h2, h3⟩

/-- No record above 550 km. -/
theorem decoder_altitude : decoderTable.all (fun r => Nat.ble r.altDm 5500000) = true := by decide +kernel

end PyBSM
