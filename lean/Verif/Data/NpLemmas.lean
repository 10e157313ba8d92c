import Verif.Data.Np
/-!
# Lemmas about the numpy operations
-/

namespace Verif.Data
open Verif

theorem npAt_nat {α : Type} {l : List α} {i : Nat} {x : α} (h : l[i]? = some x) :
    npAt l (i : Int) = .ok x := by
  unfold npAt
  rw [if_pos (Int.natCast_nonneg i), Int.toNat_natCast]
  exact pyIdx_ok.mpr h

theorem npAt_nat_error {α : Type} {l : List α} {i : Nat} (h : l.length ≤ i) :
    npAt l (i : Int) = .error .indexError := by
  unfold npAt
  rw [if_pos (Int.natCast_nonneg i), Int.toNat_natCast]
  unfold pyIdx
  rw [List.getElem?_eq_none h]

theorem npTake_nat {α : Type} {l : List α} {is : List Nat} {out : List α}
    (h : List.Forall₂ (fun i x => l[i]? = some x) is out) :
    npTake l (is.map fun i : Nat => (i : Int)) = .ok out := by
  unfold npTake
  rw [mapM_ok_iff, List.forall₂_map_left_iff]
  exact h.imp fun _ _ => npAt_nat

theorem forall₂_get {α : Type} {l : List α} {is : List Nat} (h : ∀ i ∈ is, i < l.length) :
    ∃ out, List.Forall₂ (fun i x => l[i]? = some x) is out := by
  induction is with
  | nil => exact ⟨[], .nil⟩
  | cons i is ih =>
    obtain ⟨out, ho⟩ := ih fun j hj => h j (List.mem_cons_of_mem _ hj)
    have := h i List.mem_cons_self
    exact ⟨l[i] :: out, .cons (List.getElem?_eq_getElem this) ho⟩

theorem npTake_map {α β : Type} (f : α → β) (l : List α) (is : List Int) :
    npTake (l.map f) is = (npTake l is).map (List.map f) := by
  have hat : ∀ i, npAt (l.map f) i = (npAt l i).map f := by
    intro i
    unfold npAt pyIdx
    simp only [List.length_map, List.getElem?_map]
    split
    · cases l[i.toNat]? <;> rfl
    · split
      · cases l[(↑l.length + i).toNat]? <;> rfl
      · rfl
  unfold npTake
  induction is with
  | nil => rfl
  | cons i is ih =>
    rw [List.mapM_cons, List.mapM_cons, ih, hat]
    cases npAt l i with
    | error e => rfl
    | ok a =>
      simp only [Except.map, bind_ok]
      cases List.mapM (npAt l) is <;> rfl

/-! ## unique -/

section
variable {α : Type} [LinearOrder α]

theorem mem_insertU {x y : α} {l : List α} : y ∈ insertU x l ↔ y = x ∨ y ∈ l := by
  induction l with
  | nil => simp [insertU]
  | cons a l ih =>
    unfold insertU
    by_cases h1 : x < a
    · rw [if_pos h1]; simp
    · rw [if_neg h1]
      by_cases h2 : x = a
      · rw [if_pos h2]; subst h2; simp
      · rw [if_neg h2, List.mem_cons, ih, List.mem_cons]; tauto

theorem insertU_sorted {x : α} {l : List α} (h : l.Pairwise (· < ·)) :
    (insertU x l).Pairwise (· < ·) := by
  induction l with
  | nil => simp [insertU]
  | cons a l ih =>
    rw [List.pairwise_cons] at h
    unfold insertU
    by_cases h1 : x < a
    · rw [if_pos h1, List.pairwise_cons, List.pairwise_cons]
      refine ⟨?_, h⟩
      intro b hb
      rcases List.mem_cons.mp hb with rfl | hb
      · exact h1
      · exact lt_trans h1 (h.1 b hb)
    · rw [if_neg h1]
      by_cases h2 : x = a
      · rw [if_pos h2, List.pairwise_cons]; exact h
      · rw [if_neg h2, List.pairwise_cons]
        refine ⟨fun b hb => ?_, ih h.2⟩
        rcases mem_insertU.mp hb with rfl | hb
        · exact lt_of_le_of_ne (not_lt.mp h1) (Ne.symm h2)
        · exact h.1 b hb

theorem mem_npUnique {y : α} {l : List α} : y ∈ npUnique l ↔ y ∈ l := by
  induction l with
  | nil => simp [npUnique]
  | cons a l ih => rw [npUnique, mem_insertU, ih, List.mem_cons]

theorem npUnique_sorted (l : List α) : (npUnique l).Pairwise (· < ·) := by
  induction l with
  | nil => simp [npUnique]
  | cons a l ih => exact insertU_sorted ih

/-- strictly increasing lists with the same members are equal -/
theorem sorted_ext {a b : List α} (ha : a.Pairwise (· < ·)) (hb : b.Pairwise (· < ·))
    (h : ∀ x, x ∈ a ↔ x ∈ b) : a = b := by
  have nd : ∀ {l : List α}, l.Pairwise (· < ·) → l.Nodup := fun h => h.imp fun hlt => ne_of_lt hlt
  have hp : a.Perm b := (List.perm_ext_iff_of_nodup (nd ha) (nd hb)).mpr h
  exact hp.eq_of_pairwise (fun x y _ _ h1 h2 => absurd (lt_trans h1 h2) (lt_irrefl _)) ha hb

theorem npUnique_eq {l u : List α} (hs : u.Pairwise (· < ·)) (h : ∀ x, x ∈ u ↔ x ∈ l) :
    npUnique l = u :=
  sorted_ext (npUnique_sorted l) hs fun x => by rw [mem_npUnique, h]

end

/-! ## dict -/

theorem dictIndex_error {α : Type} [DecidableEq α] {keys : List α} {k : α} (h : k ∉ keys) :
    dictIndex keys k = .error .keyError := by
  unfold dictIndex
  have : (keys.zipIdx.filter fun p => decide (p.1 = k)) = [] := by
    rw [List.filter_eq_nil_iff]
    intro p hp
    simp only [decide_eq_true_eq]
    rintro rfl
    exact h (List.fst_mem_of_mem_zipIdx hp)
  rw [this]; rfl

theorem getLast?_filter_zipIdx {α : Type} (p : α → Bool) {l : List α} {i : Nat} {x : α}
    (hi : l[i]? = some x) (hp : p x = true) (hlast : ∀ j y, l[j]? = some y → p y = true → j ≤ i) :
    (l.zipIdx.filter fun q => p q.1).getLast? = some (x, i) := by
  obtain ⟨hlt, hx⟩ := List.getElem?_eq_some_iff.mp hi
  have hsplit : l.zipIdx = (l.zipIdx.take i) ++ (x, i) :: (l.zipIdx.drop (i + 1)) := by
    have hl : i < l.zipIdx.length := by simpa using hlt
    have e : l.zipIdx[i]'hl = (x, i) := by simp [hx]
    rw [← e, List.getElem_cons_drop, List.take_append_drop]
  have hnone : (l.zipIdx.drop (i + 1)).filter (fun q => p q.1) = [] := by
    rw [List.filter_eq_nil_iff]
    intro q hq
    obtain ⟨j, hj, e⟩ := List.mem_iff_getElem.mp hq
    intro hpq
    rw [List.getElem_drop] at e
    simp only [List.getElem_zipIdx, Nat.zero_add] at e
    have hj' : i + 1 + j < l.length := by
      have := hj; simp only [List.length_drop, List.length_zipIdx] at this; omega
    have := hlast (i + 1 + j) (l[i+1+j]) (List.getElem?_eq_getElem hj') (by rw [← e] at hpq; exact hpq)
    omega
  rw [hsplit, List.filter_append, List.filter_cons_of_pos (by simpa using hp), hnone]
  simp

theorem dictIndex_ok {α : Type} [DecidableEq α] {keys : List α} {k : α} {i : Nat}
    (hi : keys[i]? = some k) (hlast : ∀ j, keys[j]? = some k → j ≤ i) :
    dictIndex keys k = .ok i := by
  unfold dictIndex
  have := getLast?_filter_zipIdx (fun y => decide (y = k)) hi (by simp) (by
    intro j y hj hy
    rw [decide_eq_true_eq] at hy; subst hy; exact hlast j hj)
  rw [this]

theorem dictIndex_nodup {α : Type} [DecidableEq α] {keys : List α} {k : α} {i : Nat}
    (hn : keys.Nodup) (hi : keys[i]? = some k) : dictIndex keys k = .ok i :=
  dictIndex_ok hi fun j hj => by
    obtain ⟨h1, e1⟩ := List.getElem?_eq_some_iff.mp hi
    obtain ⟨h2, e2⟩ := List.getElem?_eq_some_iff.mp hj
    exact le_of_eq ((List.Nodup.getElem_inj_iff hn).mp (e2.trans e1.symm))

/-! ## slices and pieces -/

theorem npSlice_nat {α : Type} (l : List α) (a b : Nat) :
    npSlice l (a : Int) (b : Int) = (l.drop a).take (b - a) := by
  unfold npSlice sliceBound
  rw [if_pos (Int.natCast_nonneg b), if_pos (Int.natCast_nonneg a), Int.toNat_natCast,
    Int.toNat_natCast, List.drop_take]

theorem npConcat_ok {α : Type} {ls : List (List α)} (h : ls ≠ []) :
    npConcat ls = .ok ls.flatten := by
  unfold npConcat; rw [if_neg h]

theorem getElem?_npArange {n i : Nat} (h : i < n) : (npArange n)[i]? = some (i : Int) := by
  unfold npArange
  rw [List.getElem?_map, List.getElem?_range h]; rfl

end Verif.Data
