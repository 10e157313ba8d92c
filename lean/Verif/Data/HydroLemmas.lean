import Verif.Data.HydroSpec
import Verif.Data.NpLemmas
import Verif.Data.HierProps
import Mathlib.Tactic.Ring
/-!
# Lemmas about reshaping and distinct values
-/

namespace Verif.Data
open Verif

section distinct
variable {α : Type} [LinearOrder α]

theorem distinct_unique {l r s : List α} (hr : DistinctInOrder l r) (hs : DistinctInOrder l s) :
    r = s := by
  have nd : ∀ t : List α, t.Pairwise (fun a b => l.idxOf a < l.idxOf b) → t.Nodup :=
    fun t ht => ht.imp (fun {a b} h e => by rw [e] at h; exact Nat.lt_irrefl _ h)
  have hp : r.Perm s := by
    rw [List.perm_ext_iff_of_nodup (nd r hr.order) (nd s hs.order)]
    intro a
    rw [hr.same, hs.same]
  exact hp.eq_of_pairwise (fun a b _ _ h1 h2 => absurd h1 (Nat.lt_asymm h2)) hr.order hs.order

theorem uniqueInOrder_spec (l : List α) :
    ∃ r, npUniqueInOrder l = .ok r ∧ DistinctInOrder l r := by
  set idx := ((npUnique l).map fun v => l.idxOf v).insertionSort (fun a b => a ≤ b) with hidx
  have hperm : idx.Perm ((npUnique l).map fun v => l.idxOf v) := List.perm_insertionSort _ _
  have hmem : ∀ i ∈ idx, ∃ v ∈ l, l.idxOf v = i := by
    intro i hi
    obtain ⟨v, hv, e⟩ := List.mem_map.1 (hperm.mem_iff.1 hi)
    exact ⟨v, mem_npUnique.1 hv, e⟩
  have hlt : ∀ i ∈ idx, i < l.length := by
    intro i hi
    obtain ⟨v, hv, rfl⟩ := hmem i hi
    exact List.idxOf_lt_length_of_mem hv
  have hinj : ((npUnique l).map fun v => l.idxOf v).Nodup := by
    refine List.Nodup.map_on ?_ ((npUnique_sorted l).imp fun {a b} h => h.ne)
    intro a ha b hb e
    exact (List.idxOf_inj (mem_npUnique.1 ha)).1 e
  have hsort : idx.Pairwise (· < ·) := by
    have h1 : idx.Pairwise (fun a b => a ≤ b) := List.pairwise_insertionSort _ _
    have h2 : idx.Nodup := hperm.nodup_iff.2 hinj
    exact (h1.and h2).imp fun {a b} h => lt_of_le_of_ne h.1 h.2
  have hf : List.Forall₂ (fun i x => l[i]? = some x) idx
      (idx.attach.map fun i => l[i.1]'(hlt i.1 i.2)) := by
    rw [List.forall₂_iff_get]
    refine ⟨by simp, ?_⟩
    intro i h1 h2
    simp
  refine ⟨_, npTake_nat hf, ?_, ?_⟩
  · intro x
    constructor
    · intro hx
      obtain ⟨k, hk⟩ := List.mem_iff_getElem?.1 hx
      rw [List.getElem?_map] at hk
      cases hi : idx.attach[k]? with
      | none => rw [hi] at hk; cases hk
      | some i =>
        rw [hi] at hk
        simp only [Option.map_some, Option.some.injEq] at hk
        rw [← hk]
        exact List.getElem_mem _
    · intro hx
      have hi : l.idxOf x ∈ idx := hperm.mem_iff.2
        (List.mem_map.2 ⟨x, mem_npUnique.2 hx, rfl⟩)
      refine List.mem_map.2 ⟨⟨_, hi⟩, List.mem_attach _ _, ?_⟩
      exact List.getElem_idxOf _
  · rw [List.pairwise_map]
    have key : ∀ i (hi : i ∈ idx), l.idxOf (l[i]'(hlt i hi)) = i := by
      intro i hi
      obtain ⟨v, hv, rfl⟩ := hmem i hi
      congr 1
      exact List.getElem_idxOf _
    have : idx.attach.Pairwise fun a b => a.1 < b.1 := by
      rw [← List.pairwise_map (f := Subtype.val) (R := (· < ·)), List.attach_map_subtype_val]
      exact hsort
    refine this.imp ?_
    intro a b hab
    rw [key a.1 a.2, key b.1 b.2]
    exact hab

theorem grid_dirs {D F : List α} (hD : D.Nodup) (hF : F ≠ []) :
    DistinctInOrder (D.flatMap fun d => F.map fun _ => d) D := by
  constructor
  · intro x
    simp only [List.mem_flatMap, List.mem_map]
    constructor
    · intro h
      obtain ⟨f, hf⟩ := List.exists_mem_of_ne_nil F hF
      exact ⟨x, h, f, hf, rfl⟩
    · rintro ⟨d, h, _, _, rfl⟩
      exact h
  · induction D with
    | nil => exact .nil
    | cons d ds ih =>
      rw [List.nodup_cons] at hD
      have hmem : ∀ x, x ∉ F.map (fun _ => d) ↔ x ≠ d := by
        intro x
        obtain ⟨f, hf⟩ := List.exists_mem_of_ne_nil F hF
        simp only [List.mem_map, exists_and_right, ne_eq, not_and]
        constructor
        · intro h e; exact h ⟨f, hf⟩ e.symm
        · intro h _ e; exact h e.symm
      have hne : ∀ x ∈ ds, x ≠ d := fun x hx e => hD.1 (e ▸ hx)
      refine List.Pairwise.cons ?_ ?_
      · intro b hb
        obtain ⟨f, fs, rfl⟩ := List.exists_cons_of_ne_nil hF
        simp only [List.flatMap_cons, List.map_cons, List.cons_append, List.idxOf_cons_self]
        rw [List.idxOf_cons_ne _ (hne b hb).symm]
        exact Nat.succ_pos _
      · refine (List.Pairwise.imp_of_mem ?_ (ih hD.2))
        intro a b ha hb hab
        simp only [List.flatMap_cons]
        rw [List.idxOf_append_of_notMem ((hmem a).2 (hne a ha)),
          List.idxOf_append_of_notMem ((hmem b).2 (hne b hb))]
        omega

theorem grid_freqs {D F : List α} (hF : F.Nodup) (hD : D ≠ []) :
    DistinctInOrder (D.flatMap fun _ => F) F := by
  obtain ⟨d, ds, rfl⟩ := List.exists_cons_of_ne_nil hD
  constructor
  · intro x
    simp only [List.mem_flatMap, List.mem_cons]
    constructor
    · intro h; exact ⟨d, Or.inl rfl, h⟩
    · rintro ⟨_, _, h⟩; exact h
  · simp only [List.flatMap_cons]
    rw [List.pairwise_iff_getElem]
    intro i j hi hj hij
    rw [List.idxOf_append_of_mem (List.getElem_mem hi), List.idxOf_append_of_mem (List.getElem_mem hj),
      hF.idxOf_getElem, hF.idxOf_getElem]
    exact hij

end distinct

section reshape

/-- entry `k` of block `i` of equally long blocks -/
theorem flatMap_at {β γ : Type} {D : List β} {f : β → List γ} {m : Nat}
    (hlen : ∀ d ∈ D, (f d).length = m) {i k : Nat} {d : β} (hd : D[i]? = some d) (hk : k < m) :
    (D.flatMap f)[i * m + k]? = (f d)[k]? := by
  induction D generalizing i with
  | nil => simp at hd
  | cons e es ih =>
    have he := hlen e List.mem_cons_self
    cases i with
    | zero =>
      simp only [List.getElem?_cons_zero, Option.some.injEq] at hd
      subst hd
      rw [List.flatMap_cons, Nat.zero_mul, Nat.zero_add, List.getElem?_append_left (by omega)]
    | succ i =>
      rw [List.getElem?_cons_succ] at hd
      rw [List.flatMap_cons, List.getElem?_append_right (by rw [he, Nat.succ_mul]; omega), he]
      have : (i + 1) * m + k - m = i * m + k := by rw [Nat.succ_mul]; omega
      rw [this]
      exact ih (fun d hd' => hlen d (List.mem_cons_of_mem _ hd')) hd

theorem flatMap_length {β γ : Type} {D : List β} {f : β → List γ} {m : Nat}
    (hlen : ∀ d ∈ D, (f d).length = m) : (D.flatMap f).length = D.length * m := by
  induction D with
  | nil => simp
  | cons e es ih =>
    rw [List.flatMap_cons, List.length_append, hlen e List.mem_cons_self,
      ih fun d hd => hlen d (List.mem_cons_of_mem _ hd), List.length_cons, Nat.succ_mul]
    omega

theorem flatMap_flatten {β γ : Type} (D : List β) (f : β → List (List γ)) :
    (D.flatMap f).flatten = D.flatMap fun d => (f d).flatten := by
  induction D with
  | nil => rfl
  | cons e es ih => rw [List.flatMap_cons, List.flatten_append, ih, List.flatMap_cons]

theorem nd_reshape_ok {α : Type} [Zero α] {flat : List α} {shape : List Nat}
    (h : flat.length = shape.prod) : ∃ a, ndReshape flat shape = .ok a ∧ a.shape = shape ∧
      ∀ idx x, flat[ravel shape idx]? = some x → a.get idx = x := by
  refine ⟨_, if_pos h, rfl, ?_⟩
  intro idx x hx
  show flat.getD _ 0 = x
  rw [List.getD_eq_getElem?_getD, hx]
  rfl

theorem reshape_error {α : Type} [Zero α] {flat : List α} {shape : List Nat}
    (h : flat.length ≠ shape.prod) : ndReshape flat shape = .error .valueError := if_neg h

end reshape
end Verif.Data
