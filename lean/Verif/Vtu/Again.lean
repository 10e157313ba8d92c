import Verif.Vtu.Props
import Verif.Vtu.Shared
import Mathlib.Logic.Function.Iterate

/-!
# C78: handing the same arrays to the writer more than once
-/

namespace Verif.Vtu
open Verif

/-! ## specification -/

/-- the call gives the array `c` as connectivity -/
def RCall.Cells (c : Nat) : RCall → Prop
  | .newPiece _ _ c' _ _ => c' = c
  | _ => False

instance (c : Nat) (r : RCall) : Decidable (r.Cells c) := by
  cases r <;> unfold RCall.Cells <;> infer_instance

/-- the call gives the array `a` as element results -/
def RCall.Results (a : Nat) : RCall → Prop
  | .addDataCellpoints _ a' _ _ => a' = a
  | _ => False

instance (c : Nat) (r : RCall) : Decidable (r.Results c) := by
  cases r <;> unfold RCall.Results <;> infer_instance

/-- `c` is given as connectivity only, always with the offsets `o` and types `t`, and the caller
puts nothing else in it -/
def RCall.Only (c o t : Nat) : RCall → Prop
  | .newPiece _ _ c' o' t' => c' = c → o' = o ∧ t' = t
  | .addDataCellpoints _ a _ _ => a ≠ c
  | .assign a _ => a ≠ c
  | _ => True

/-- `a` is given as results only, pieces have the offsets `o` and types `t`, and the caller puts
nothing else in `a` -/
def RCall.OnlyRes (a o t : Nat) : RCall → Prop
  | .newPiece _ _ c' o' t' => c' ≠ a ∧ o' = o ∧ t' = t
  | .assign a' _ => a' ≠ a
  | _ => True

/-- `n` times in VTK order -/
def inOrder {α : Type} (n : Nat) (types : List Nat) (blocks : List (List α)) : List (List α) :=
  List.zipWith (fun t b => (vtkOrder t)^[n] b) types blocks

def inResOrder {α : Type} (n : Nat) (types : List Nat) (blocks : List (List α)) : List (List α) :=
  List.zipWith (fun t b => (vtkResOrder t)^[n] b) types blocks

/-! ## helpers -/

theorem vtkOrder_len {α : Type} (t : Nat) (l : List α) : (vtkOrder t l).length = l.length := by
  unfold vtkOrder
  split <;> rfl

theorem vtkResOrder_len {α : Type} (t : Nat) (l : List α) :
    (vtkResOrder t l).length = l.length := by
  unfold vtkResOrder
  split <;> rfl

theorem iter_len {α : Type} {f : List α → List α} (hf : ∀ l, (f l).length = l.length) (n : Nat)
    (l : List α) : (f^[n] l).length = l.length := by
  induction n with
  | zero => rfl
  | succ n ih => rw [Function.iterate_succ_apply', hf, ih]

theorem ends_zip {α : Type} {f : Nat → List α → List α} (hf : ∀ t l, (f t l).length = l.length)
    (types : List Nat) (blocks : List (List α)) (h : types.length = blocks.length) (s : Nat) :
    ends s (List.zipWith f types blocks) = ends s blocks := by
  induction blocks generalizing types s with
  | nil => simp [ends]
  | cons b bs ih =>
    match types, h with
    | t :: ts, h => simp [ends, hf, ih ts (by simpa using h)]

theorem ends_inOrder {α : Type} {types : List Nat} {blocks : List (List α)}
    (h : types.length = blocks.length) (n : Nat) : ends 0 (inOrder n types blocks) = ends 0 blocks :=
  ends_zip (fun t l => iter_len (vtkOrder_len t) n l) types blocks h 0

theorem ends_inResOrder {α : Type} {types : List Nat} {blocks : List (List α)}
    (h : types.length = blocks.length) (n : Nat) :
    ends 0 (inResOrder n types blocks) = ends 0 blocks :=
  ends_zip (fun t l => iter_len (vtkResOrder_len t) n l) types blocks h 0

theorem zip_iter {α : Type} {f : Nat → List α → List α} (n : Nat)
    (types : List Nat) (blocks : List (List α)) :
    List.zipWith f types (List.zipWith (fun t b => (f t)^[n] b) types blocks)
      = List.zipWith (fun t b => (f t)^[n + 1] b) types blocks := by
  induction types generalizing blocks with
  | nil => rfl
  | cons t ts ih =>
    cases blocks with
    | nil => rfl
    | cons b bs => simp [ih, Function.iterate_succ_apply']

theorem zip_ok {α : Type} {f : Nat → List α → List α} (hf : ∀ t l, (f t l).length = l.length)
    {P : Nat → Nat → Prop} (types : List Nat) (blocks : List (List α))
    (h : ∀ p ∈ types.zip blocks, P p.1 p.2.length) :
    ∀ p ∈ types.zip (List.zipWith f types blocks), P p.1 p.2.length := by
  induction types generalizing blocks with
  | nil => simp
  | cons t ts ih =>
    cases blocks with
    | nil => simp
    | cons b bs =>
      intro p hp
      simp only [List.zipWith_cons_cons, List.zip_cons_cons, List.mem_cons] at hp
      rcases hp with rfl | hp
      · simpa [hf] using h (t, b) (by simp)
      · exact ih bs (fun p hp => h p (by simp [hp])) p hp

theorem reorder_inOrder {α : Type} {types : List Nat} {blocks : List (List α)} (rest : List α)
    (hlen : types.length = blocks.length)
    (hok : ∀ p ∈ types.zip blocks, (p.1 = 23 → p.2.length = 3) ∧ (p.1 = 28 → p.2.length = 8))
    (n : Nat) :
    reorderData conTable ((inOrder n types blocks).flatten ++ rest) 0 (ends 0 blocks) types
      = ((inOrder (n + 1) types blocks).flatten ++ rest, none) := by
  have h := reorder_connectivity (inOrder n types blocks) types rest (by simp [inOrder, hlen])
    (zip_ok (P := fun a b => (a = 23 → b = 3) ∧ (a = 28 → b = 8))
      (fun t l => iter_len (vtkOrder_len t) n l) types blocks hok)
  rw [ends_inOrder hlen] at h
  rw [h, inOrder, inOrder, zip_iter]

theorem reorder_inResOrder {α : Type} {types : List Nat} {blocks : List (List α)} (rest : List α)
    (hlen : types.length = blocks.length)
    (hok : ∀ p ∈ types.zip blocks, p.1 = 26 → p.2.length = 6) (n : Nat) :
    reorderData resTable ((inResOrder n types blocks).flatten ++ rest) 0 (ends 0 blocks) types
      = ((inResOrder (n + 1) types blocks).flatten ++ rest, none) := by
  have h := reorder_results (inResOrder n types blocks) types rest (by simp [inResOrder, hlen])
    (zip_ok (P := fun a b => a = 26 → b = 6)
      (fun t l => iter_len (vtkResOrder_len t) n l) types blocks hok)
  rw [ends_inResOrder hlen] at h
  rw [h, inResOrder, inResOrder, zip_iter]

theorem conAfter_ok {s s' : St} {p c : Arr} {o t : IArr} (h : newPiece p c o t s = (s', none)) :
    conAfter s c o t
      = { c with rows := (reorderData conTable c.rows 0 o.vals t.vals).1 } := by
  unfold conAfter
  unfold newPiece at h
  rcases h1 : closeData s with ⟨s1, _ | e⟩
  · rw [seq_of_ok h1] at h
    rcases h2 : closePiece s1 with ⟨s2, _ | e⟩
    · rw [seq_of_ok h1, h2]
    · rw [seq_of_err h2] at h; cases h
  · rw [seq_of_err h1] at h; cases h

theorem conAfter_rel {s : St} {d : Doc} (h : Rel s d) (c : Arr) (o t : IArr) :
    conAfter s c o t
      = { c with rows := (reorderData conTable c.rows 0 o.vals t.vals).1 } := by
  obtain ⟨s1, s2, h1, h2, -⟩ := flatten_rel h
  unfold conAfter
  rw [seq_of_ok h1, h2]

theorem run_ints (r : RCall) (h : Heap) : (r.run h).1.ints = h.ints := by
  cases r <;> rfl

theorem runs_ints (h : Heap) (calls : List RCall) : (runs h calls).2.ints = h.ints := by
  induction calls generalizing h with
  | nil => rfl
  | cons r rs ih => exact (ih (r.run h).1).trans (run_ints r h)

/-- a call that does not give `c` as connectivity leaves it -/
theorem run_other {c o t : Nat} {r : RCall} (h : Heap) (ho : r.Only c o t) (hc : ¬ r.Cells c) :
    (r.run h).1.arrs c = h.arrs c := by
  cases r with
  | newPiece w p c' o' t' =>
    exact Function.update_of_ne (fun e => hc e.symm) _ _
  | addDataCellpoints w a n cs => exact Function.update_of_ne (fun e => ho e.symm) _ _
  | assign a v => exact Function.update_of_ne (fun e => ho e.symm) _ _
  | _ => rfl

theorem run_cells {c o t : Nat} {r : RCall} {h : Heap} (ho : r.Only c o t) (hc : r.Cells c)
    (hr : (r.run h).2 = none) :
    (r.run h).1.arrs c = { h.arrs c with
      rows := (reorderData conTable (h.arrs c).rows 0 (h.ints o).vals (h.ints t).vals).1 } := by
  cases r with
  | newPiece w p c' o' t' =>
    obtain rfl : c' = c := hc
    obtain ⟨rfl, rfl⟩ := ho rfl
    rw [← conAfter_ok (Prod.ext rfl hr)]
    exact Function.update_self _ _ _
  | _ => exact hc.elim

/-- number of times the array is given as connectivity -/
def cellsCount (c : Nat) (calls : List RCall) : Nat := (calls.filter fun r => r.Cells c).length

theorem cells_from {c o t : Nat} {types : List Nat} {blocks : List (List (List Byte))}
    {rest : List (List Byte)} (hlen : types.length = blocks.length)
    (hok : ∀ p ∈ types.zip blocks, (p.1 = 23 → p.2.length = 3) ∧ (p.1 = 28 → p.2.length = 8))
    (calls : List RCall) (h : Heap) (m : Nat) (a : Arr)
    (hc : h.arrs c = { a with rows := (inOrder m types blocks).flatten ++ rest })
    (hoff : (h.ints o).vals = ends 0 blocks) (htyp : (h.ints t).vals = types)
    (honly : ∀ r ∈ calls, r.Only c o t)
    (hret : ∀ p ∈ (runs h calls).1, p.1.Cells c → p.2 = none) :
    (runs h calls).2.arrs c = { a with
      rows := (inOrder (m + cellsCount c calls) types blocks).flatten ++ rest } := by
  induction calls generalizing h m with
  | nil => exact hc
  | cons r rs ih =>
    have hi := run_ints r h
    have hor := honly r (by simp)
    by_cases hcr : r.Cells c
    · have hr := hret (r, (r.run h).2) (by simp [runs]) hcr
      have h1 := run_cells hor hcr hr
      have := ih (r.run h).1 (m + 1)
        (by rw [h1, hc, hoff, htyp]; simp only [reorder_inOrder rest hlen hok m])
        (by rw [hi]; exact hoff) (by rw [hi]; exact htyp) (fun q hq => honly q (by simp [hq]))
        (fun q hq => hret q (by simp only [runs]; exact List.mem_cons_of_mem _ hq))
      simp only [runs]
      rw [this]
      simp only [cellsCount, List.filter_cons, hcr, decide_true, if_true, List.length_cons]
      rw [Nat.add_assoc, Nat.add_comm 1]
    · have := ih (r.run h).1 m ((run_other h hor hcr).trans hc)
        (by rw [hi]; exact hoff) (by rw [hi]; exact htyp) (fun q hq => honly q (by simp [hq]))
        (fun q hq => hret q (by simp only [runs]; exact List.mem_cons_of_mem _ hq))
      simp only [runs]
      rw [this]
      simp [cellsCount, hcr]

/-! ## property theorems: connectivity -/

/-- **C78.** The caller's connectivity array after any calls of any writers that gave it `n` times
as connectivity (and wrote nothing else in it): the nodes of each element have been put in VTK
order `n` times, one after the other.  Offsets and types stay. -/
theorem connectivity_again {c o t : Nat} {types : List Nat} {blocks : List (List (List Byte))}
    {rest : List (List Byte)} (hlen : types.length = blocks.length)
    (hok : ∀ p ∈ types.zip blocks, (p.1 = 23 → p.2.length = 3) ∧ (p.1 = 28 → p.2.length = 8))
    (calls : List RCall) (h : Heap) (hc : (h.arrs c).rows = blocks.flatten ++ rest)
    (hoff : (h.ints o).vals = ends 0 blocks) (htyp : (h.ints t).vals = types)
    (honly : ∀ r ∈ calls, r.Only c o t)
    (hret : ∀ p ∈ (runs h calls).1, p.1.Cells c → p.2 = none) :
    (runs h calls).2.arrs c = { h.arrs c with
      rows := (inOrder (calls.filter fun r => r.Cells c).length types blocks).flatten ++ rest } ∧
    (runs h calls).2.ints = h.ints := by
  have h0 : inOrder 0 types blocks = blocks := by
    simp only [inOrder, Function.iterate_zero, id]
    clear hok htyp hoff hc
    induction blocks generalizing types with
    | nil => simp
    | cons b bs ih =>
      match types, hlen with
      | t :: ts, hlen => simp [ih (types := ts) (by simpa using hlen)]
  refine ⟨?_, runs_ints h calls⟩
  have := cells_from hlen hok calls h 0 (h.arrs c) (by rw [h0, ← hc]) hoff htyp honly hret
  simpa [cellsCount] using this

/-- **C78.** The piece that is written when the array is given once more: its connectivity is the
caller's put in VTK order `n + 1` times. -/
theorem piece_again {c o t : Nat} {types : List Nat} {blocks : List (List (List Byte))}
    {rest : List (List Byte)} (hlen : types.length = blocks.length)
    (hok : ∀ p ∈ types.zip blocks, (p.1 = 23 → p.2.length = 3) ∧ (p.1 = 28 → p.2.length = 8))
    (calls : List RCall) (h : Heap) (hc : (h.arrs c).rows = blocks.flatten ++ rest)
    (hoff : (h.ints o).vals = ends 0 blocks) (htyp : (h.ints t).vals = types)
    (honly : ∀ r ∈ calls, r.Only c o t)
    (hret : ∀ p ∈ (runs h calls).1, p.1.Cells c → p.2 = none)
    (w p : Nat) (hp : p ≠ c) {doc : Doc} (hrel : Rel ((runs h calls).2.writers w) doc)
    (hlast : (RCall.run (.newPiece w p c o t) (runs h calls).2).2 = none) :
    ∃ piece, Rel ((RCall.run (.newPiece w p c o t) (runs h calls).2).1.writers w) (doc ++ [piece]) ∧
      piece.points = (runs h calls).2.arrs p ∧ piece.offsets = h.ints o ∧ piece.types = h.ints t ∧
      piece.con.dtype = (h.arrs c).dtype ∧
      piece.con.rows = (inOrder ((calls.filter fun r => r.Cells c).length + 1) types blocks).flatten
        ++ rest := by
  obtain ⟨h1, h2⟩ := connectivity_again hlen hok calls h hc hoff htyp honly hret
  generalize (runs h calls).2 = g at *
  have hp' : (Function.update g.arrs c
      (conAfter (g.writers w) (g.arrs c) (g.ints o) (g.ints t))) p = g.arrs p :=
    Function.update_of_ne hp _ _
  have hw : (RCall.run (.newPiece w p c o t) g).1.writers w
      = (newPiece (g.arrs p) (g.arrs c) (g.ints o) (g.ints t) (g.writers w)).1 := by
    simp only [RCall.run, Heap.on, hp', Function.update_self]
  have he : (newPiece (g.arrs p) (g.arrs c) (g.ints o) (g.ints t) (g.writers w)).2 = none := by
    have := hlast
    simp only [RCall.run, Heap.on, hp'] at this
    exact this
  obtain ⟨d', hd, hr⟩ := newPiece_ok hrel (Prod.ext rfl he :
    newPiece (g.arrs p) (g.arrs c) (g.ints o) (g.ints t) (g.writers w) = (_, none))
  rw [hw]
  cases hd with
  | newPiece _ _ _ _ _ rows vt hre ht =>
    refine ⟨_, hr, rfl, by rw [h2], by rw [h2], by rw [h1], ?_⟩
    rw [h1, h2, hoff, htyp] at hre
    simp only [reorder_inOrder rest hlen hok] at hre
    exact (congrArg Prod.fst hre).symm

/-- **C78.** Also if `new_piece` raises (for an element type that has no VTK type, for an array
that cannot be written), the connectivity array has been put in VTK order once more. -/
theorem refused_reorders {c o t : Nat} {types : List Nat} {blocks : List (List (List Byte))}
    {rest : List (List Byte)} (hlen : types.length = blocks.length)
    (hok : ∀ p ∈ types.zip blocks, (p.1 = 23 → p.2.length = 3) ∧ (p.1 = 28 → p.2.length = 8))
    (h : Heap) (hc : (h.arrs c).rows = blocks.flatten ++ rest)
    (hoff : (h.ints o).vals = ends 0 blocks) (htyp : (h.ints t).vals = types) (w p : Nat)
    {doc : Doc} (hrel : Rel (h.writers w) doc) :
    ((RCall.run (.newPiece w p c o t) h).1.arrs c).rows
      = (List.zipWith vtkOrder types blocks).flatten ++ rest := by
  have : (RCall.run (.newPiece w p c o t) h).1.arrs c
      = conAfter (h.writers w) (h.arrs c) (h.ints o) (h.ints t) := Function.update_self _ _ _
  rw [this, conAfter_rel hrel, hc, hoff, htyp]
  simp only [reorder_connectivity blocks types rest hlen hok]

/-! ### how often the order is right -/

theorem beam_order {α : Type} (a m b : α) (n : Nat) :
    (vtkOrder 23)^[n] [a, m, b] = if n % 2 = 0 then [a, m, b] else [a, b, m] := by
  induction n with
  | zero => rfl
  | succ n ih =>
    rw [Function.iterate_succ_apply', ih]
    rcases Nat.mod_two_eq_zero_or_one n with e | e
    · simp only [e, if_true, if_neg (show ¬ (n + 1) % 2 = 0 by omega)]; rfl
    · simp only [e, if_pos (show (n + 1) % 2 = 0 by omega)]; rfl

theorem shell_order {α : Type} (a b c d e f g k : α) (n : Nat) :
    (vtkOrder 28)^[n] [a, b, c, d, e, f, g, k] =
      if n % 3 = 0 then [a, b, c, d, e, f, g, k]
      else if n % 3 = 1 then [a, c, e, g, b, d, f, k]
      else [a, e, b, f, c, g, d, k] := by
  induction n with
  | zero => rfl
  | succ n ih =>
    rw [Function.iterate_succ_apply', ih]
    have : n % 3 = 0 ∨ n % 3 = 1 ∨ n % 3 = 2 := by omega
    rcases this with e | e | e
    · simp only [e, if_true, if_neg (show ¬ (n + 1) % 3 = 0 by omega),
        if_pos (show (n + 1) % 3 = 1 by omega)]; rfl
    · simp only [e, if_neg (show ¬ (n + 1) % 3 = 0 by omega),
        if_neg (show ¬ (n + 1) % 3 = 1 by omega)]; rfl
    · simp only [e, if_pos (show (n + 1) % 3 = 0 by omega)]; rfl

theorem triangle_order {α : Type} (a b c d e f : α) (n : Nat) :
    (vtkResOrder 26)^[n] [a, b, c, d, e, f] =
      if n % 4 = 0 then [a, b, c, d, e, f]
      else if n % 4 = 1 then [a, c, e, b, d, f]
      else if n % 4 = 2 then [a, e, d, c, b, f]
      else [a, d, b, e, c, f] := by
  induction n with
  | zero => rfl
  | succ n ih =>
    rw [Function.iterate_succ_apply', ih]
    have : n % 4 = 0 ∨ n % 4 = 1 ∨ n % 4 = 2 ∨ n % 4 = 3 := by omega
    rcases this with e | e | e | e
    · simp only [e, if_true, if_neg (show ¬ (n + 1) % 4 = 0 by omega),
        if_pos (show (n + 1) % 4 = 1 by omega)]; rfl
    · simp only [e, if_neg (show ¬ (n + 1) % 4 = 0 by omega),
        if_neg (show ¬ (n + 1) % 4 = 1 by omega), if_pos (show (n + 1) % 4 = 2 by omega)]; rfl
    · simp only [e, if_neg (show ¬ (n + 1) % 4 = 0 by omega),
        if_neg (show ¬ (n + 1) % 4 = 1 by omega), if_neg (show ¬ (n + 1) % 4 = 2 by omega)]; rfl
    · simp only [e, if_pos (show (n + 1) % 4 = 0 by omega)]; rfl

/-- **C78.** The `n`-th time the nodes of an element with different nodes are written in VTK
order exactly if: three node beams, `n` is odd; eight node shells, `n` is one more than a multiple
of three; other elements, always. -/
theorem right_iff {α : Type} (t : Nat) (b : List α) (hd : b.Nodup)
    (hok : (t = 23 → b.length = 3) ∧ (t = 28 → b.length = 8)) (n : Nat) :
    (vtkOrder t)^[n] b = vtkOrder t b ↔
      (t = 23 → n % 2 = 1) ∧ (t = 28 → n % 3 = 1) := by
  by_cases h1 : t = 23
  · subst h1
    match b, hok.1 rfl, hd with
    | [x, y, z], _, hd =>
      rw [beam_order]
      rcases Nat.mod_two_eq_zero_or_one n with e | e
      · simp [e, vtkOrder] at hd ⊢
        intro h; exact absurd h hd.2
      · simp [e, vtkOrder]
  · by_cases h2 : t = 28
    · subst h2
      match b, hok.2 rfl, hd with
      | [a, b, c, d, e, f, g, k], _, hd =>
        rw [shell_order]
        have : n % 3 = 0 ∨ n % 3 = 1 ∨ n % 3 = 2 := by omega
        rcases this with e' | e' | e'
        · simp only [e', vtkOrder] at hd ⊢
          simp at hd ⊢
          intro h; exact absurd h hd.2.1.1
        · simp [e', vtkOrder]
        · simp only [e', vtkOrder] at hd ⊢
          simp at hd ⊢
          intro h; exact absurd h.symm hd.2.2.1.2.1
    · have hid : vtkOrder t = (id : List α → List α) := by
        funext l
        exact conTable_none t l (by unfold conTable; split <;> simp_all)
      simp [hid, h1, h2]

/-- **C78.** the same for results of six node triangles: exactly if `n` is one more than a
multiple of four -/
theorem right_res_iff {α : Type} (t : Nat) (b : List α) (hd : b.Nodup)
    (hok : t = 26 → b.length = 6) (n : Nat) :
    (vtkResOrder t)^[n] b = vtkResOrder t b ↔ (t = 26 → n % 4 = 1) := by
  by_cases h1 : t = 26
  · subst h1
    match b, hok rfl, hd with
    | [a, b, c, d, e, f], _, hd =>
      rw [triangle_order]
      have : n % 4 = 0 ∨ n % 4 = 1 ∨ n % 4 = 2 ∨ n % 4 = 3 := by omega
      rcases this with e' | e' | e' | e'
      · simp only [e', vtkResOrder] at hd ⊢
        simp at hd ⊢
        intro h; exact absurd h hd.2.1.1
      · simp [e', vtkResOrder]
      · simp only [e', vtkResOrder] at hd ⊢
        simp at hd ⊢
        intro h; exact absurd h.symm hd.2.2.1.2.1
      · simp only [e', vtkResOrder] at hd ⊢
        simp at hd ⊢
        intro h; exact absurd h.symm hd.2.2.1.1
  · have hid : vtkResOrder t = (id : List α → List α) := by
      funext l
      exact resTable_none t l (by unfold resTable; split <;> simp_all)
    simp [hid, h1]

/-! ## element results -/

/-- the operation leaves the offsets and types of the current piece -/
def KeepsCur (f : Op) : Prop := ∀ s, (f s).1.cur = s.cur

theorem KeepsCur.seq {f g : Op} (hf : KeepsCur f) (hg : KeepsCur g) : KeepsCur (f ;; g) := by
  intro s
  rcases h : f s with ⟨s', _ | e⟩
  · rw [seq_of_ok h, hg s', ← congrArg Prod.fst h |> fun e => congrArg St.cur e]
    exact hf s
  · rw [seq_of_err h]
    have := hf s
    rw [h] at this
    exact this

theorem keeps_emit (x : Str) : KeepsCur (emit x) := by
  intro s; unfold emit; split <;> rfl

theorem keeps_open (tag : Str) (at' : List (Str × Str)) : KeepsCur (openElement tag at') := by
  intro s; exact keeps_emit _ _

theorem keeps_close (tag : Str) : KeepsCur (closeElement tag) := by
  intro s
  unfold closeElement
  split
  · rfl
  · simp only
    split
    · exact keeps_emit _ _
    · rfl

theorem keeps_array (a : Arr) (n : Str) (cs : List Str) : KeepsCur (writeArray a n cs) := by
  intro s
  unfold writeArray
  simp only
  split
  · rfl
  · split
    · rfl
    · refine (keeps_open _ _).seq (.seq (fun s => keeps_emit _ _) (.seq (fun s => ?_)
        (.seq (keeps_emit _) (keeps_close _)))) _
      split
      · rfl
      · exact keeps_emit _ _

theorem keeps_closeData : KeepsCur closeData := by
  intro s
  unfold closeData
  split
  · exact (keeps_close _).seq (fun _ => rfl) _
  · split
    · exact (keeps_close _).seq (fun _ => rfl) _
    · rfl

theorem keeps_closePiece : KeepsCur closePiece := by
  intro s
  unfold closePiece
  split
  · exact (keeps_close _).seq (fun _ => rfl) _
  · rfl

theorem keeps_addData (a : Arr) (n : Str) (cs : List Str) : KeepsCur (addData a n cs) := by
  intro s
  unfold addData
  split
  · rfl
  · exact keeps_array _ _ _ _

theorem cur_newPiece (p c : Arr) (o t : IArr) (s : St) :
    (newPiece p c o t s).1.cur = s.cur ∨ (newPiece p c o t s).1.cur = some (o.vals, t.vals) := by
  unfold newPiece
  rcases h1 : closeData s with ⟨s1, _ | e⟩
  · have k1 : s1.cur = s.cur := by have := keeps_closeData s; rw [h1] at this; exact this
    rw [seq_of_ok h1]
    rcases h2 : closePiece s1 with ⟨s2, _ | e⟩
    · have k2 : s2.cur = s1.cur := by have := keeps_closePiece s1; rw [h2] at this; exact this
      rw [seq_of_ok h2, seq_of_ok (s1 := { s2 with pieceOpen := true }) rfl]
      rcases reorderData conTable c.rows 0 o.vals t.vals with ⟨rows, _ | e⟩
      · right
        simp only
        rcases typeidmapper t with e | v
        · rfl
        · exact (keeps_open _ _).seq (.seq (keeps_open _ _) (.seq (keeps_array _ _ _)
            (.seq (keeps_close _) (.seq (keeps_open _ _) (.seq (keeps_array _ _ _)
            (.seq (keeps_array _ _ _) (.seq (keeps_array _ _ _) (keeps_close _)))))))) _
      · left
        exact k2.trans k1
    · have k2 : s2.cur = s1.cur := by have := keeps_closePiece s1; rw [h2] at this; exact this
      left
      rw [seq_of_err h2]
      exact k2.trans k1
  · left
    have := keeps_closeData s
    rw [h1] at this
    rw [seq_of_err h1]
    exact this

theorem keeps_start (d : Op) (hd : d = startPointdata ∨ d = startCelldata) : KeepsCur d := by
  intro s
  rcases hd with rfl | rfl
  · unfold startPointdata
    split
    · exact keeps_closeData.seq (.seq (keeps_open _ _) (fun _ => rfl)) _
    · rfl
  · unfold startCelldata
    split
    · exact keeps_closeData.seq (.seq (keeps_open _ _) (fun _ => rfl)) _
    · rfl

theorem keeps_cellpoints (a : Arr) (n : Str) (cs : List Str) :
    KeepsCur (addDataCellpoints a n cs) := by
  intro s
  unfold addDataCellpoints
  rcases hcur : s.cur with _ | ⟨offs, typs⟩
  · exact hcur
  · simp only
    rcases reorderData resTable a.rows 0 offs typs with ⟨rows, _ | e⟩
    · simp only
      rw [keeps_addData]; exact hcur
    · exact hcur

/-- the operation does not raise TypeError -/
def NoType (f : Op) : Prop := ∀ s, (f s).2 ≠ some .typeError

theorem NoType.seq {f g : Op} (hf : NoType f) (hg : NoType g) : NoType (f ;; g) := by
  intro s
  rcases h : f s with ⟨s', _ | e⟩
  · rw [seq_of_ok h]; exact hg s'
  · rw [seq_of_err h]
    have := hf s
    rw [h] at this
    exact this

theorem noType_emit (x : Str) : NoType (emit x) := by
  intro s; unfold emit; split <;> simp

theorem noType_close (tag : Str) : NoType (closeElement tag) := by
  intro s
  unfold closeElement
  split
  · simp
  · simp only
    split
    · exact noType_emit _ _
    · simp

theorem noType_array (a : Arr) (n : Str) (cs : List Str) : NoType (writeArray a n cs) := by
  intro s
  unfold writeArray
  simp only
  split
  · rename_i e he
    rcases ht : a.tail with _ | ⟨x, _ | ⟨y, l⟩⟩ <;> simp [ht] at he
    simp [← he]
  · split
    · simp
    · refine NoType.seq (fun s => noType_emit _ _) (.seq (fun s => noType_emit _ _)
        (.seq (fun s => ?_) (.seq (noType_emit _) (noType_close _)))) _
      rcases hp : packQ (a.size * a.itemsize) with e | x
      · unfold packQ at hp
        split at hp
        · cases hp
        · cases hp; simp
      · exact noType_emit _ _

theorem noType_addData (a : Arr) (n : Str) (cs : List Str) : NoType (addData a n cs) := by
  intro s
  unfold addData
  split
  · simp
  · exact noType_array _ _ _ _

theorem mapM_idx_err {α : Type} (l : List α) (ind : List Nat) {e : Err}
    (h : ind.mapM (pyIdx l) = .error e) : e = .indexError := by
  induction ind with
  | nil => rw [List.mapM_nil] at h; cases h
  | cons i is ih =>
    rw [List.mapM_cons] at h
    rcases hi : pyIdx l i with e' | x
    · rw [hi] at h
      cases h
      unfold pyIdx at hi
      split at hi
      · cases hi
      · exact (Except.error.inj hi).symm
    · rw [hi] at h
      rcases hm : is.mapM (pyIdx l) with e' | xs
      · rw [hm] at h
        exact ih (by rw [hm]; exact h)
      · rw [hm] at h
        cases h

theorem noType_reorder {α : Type} (tab : Nat → Option (List Nat)) (data : List α) (s : Nat)
    (os ts : List Nat) : (reorderData tab data s os ts).2 ≠ some .typeError := by
  induction os generalizing data s ts with
  | nil => simp [reorderData]
  | cons o os ih =>
    cases ts with
    | nil => simp [reorderData]
    | cons t ts =>
      simp only [reorderData]
      rcases tab t with _ | ind
      · exact ih _ _ _
      · simp only
        rcases hp : permuteSlice data s o ind with e | d
        · simp only [ne_eq, Option.some.injEq]
          rintro rfl
          unfold permuteSlice at hp
          simp only at hp
          rcases hm : ind.mapM (pyIdx ((data.drop s).take (o - s))) with e | x
          · rw [hm] at hp
            obtain rfl := mapM_idx_err _ _ hm
            cases hp
          · rw [hm] at hp
            simp only [bind_ok] at hp
            split at hp <;> cases hp
        · exact ih _ _ _

/-- `add_data_cellpoints` raises TypeError exactly if no piece was begun -/
theorem cellpoints_type_error (a : Arr) (n : Str) (cs : List Str) (s : St) :
    (addDataCellpoints a n cs s).2 = some .typeError ↔ s.cur = none := by
  unfold addDataCellpoints
  rcases hcur : s.cur with _ | ⟨offs, typs⟩
  · simp
  · simp only [reduceCtorEq, iff_false]
    rcases hr : reorderData resTable a.rows 0 offs typs with ⟨rows, _ | e⟩
    · exact noType_addData _ _ _ _
    · have := noType_reorder resTable a.rows 0 offs typs
      rw [hr] at this
      exact this

/-- every writer's current piece has these offsets and types -/
def AllCur (offs typs : List Nat) (h : Heap) : Prop :=
  ∀ w, (h.writers w).cur = none ∨ (h.writers w).cur = some (offs, typs)

theorem allCur_on {offs typs : List Nat} {h : Heap} (ha : AllCur offs typs h) {w : Nat}
    {r : St × Option Err} (hr : r.1.cur = none ∨ r.1.cur = some (offs, typs)) :
    AllCur offs typs (h.on w r).1 := by
  intro w'
  by_cases e : w' = w
  · subst e; simpa [Heap.on] using hr
  · simpa [Heap.on, Function.update_of_ne e] using ha w'

theorem allCur_run {a o t : Nat} {r : RCall} {h : Heap} (ho : r.OnlyRes a o t)
    (ha : AllCur (h.ints o).vals (h.ints t).vals h) :
    AllCur (h.ints o).vals (h.ints t).vals (r.run h).1 := by
  cases r with
  | create w => exact allCur_on ha (.inl (by decide +kernel))
  | newPiece w p c' o' t' =>
    obtain ⟨-, rfl, rfl⟩ := ho
    refine allCur_on (h := { h with arrs := _ }) ha ?_
    rcases cur_newPiece _ (h.arrs c') (h.ints o') (h.ints t') (h.writers w) with e | e
    · rw [e]; exact ha w
    · exact .inr e
  | startPointdata w => exact allCur_on ha (by rw [keeps_start _ (.inl rfl)]; exact ha w)
  | startCelldata w => exact allCur_on ha (by rw [keeps_start _ (.inr rfl)]; exact ha w)
  | addData w a n cs => exact allCur_on ha (by rw [keeps_addData]; exact ha w)
  | addDataCellpoints w a n cs =>
    exact allCur_on (h := { h with arrs := _ }) ha (by rw [keeps_cellpoints]; exact ha w)
  | close w =>
    exact allCur_on ha (by
      rw [show KeepsCur close from keeps_closeData.seq (keeps_closePiece.seq ((keeps_close _).seq
        ((keeps_close _).seq fun _ => rfl)))]
      exact ha w)
  | assign a v => exact ha

theorem run_res_other {a o t : Nat} {r : RCall} (h : Heap) (ho : r.OnlyRes a o t)
    (hc : ¬ r.Results a) : (r.run h).1.arrs a = h.arrs a := by
  cases r with
  | newPiece w p c' o' t' => exact Function.update_of_ne (fun e => ho.1 e.symm) _ _
  | addDataCellpoints w a' n cs => exact Function.update_of_ne (fun e => hc e.symm) _ _
  | assign a' v => exact Function.update_of_ne (fun e => ho e.symm) _ _
  | _ => rfl

theorem run_res {a : Nat} {offs typs : List Nat} {r : RCall} {h : Heap} (hc : r.Results a)
    (ha : AllCur offs typs h) :
    (r.run h).1.arrs a = if (r.run h).2 = some .typeError then h.arrs a else { h.arrs a with
      rows := (reorderData resTable (h.arrs a).rows 0 offs typs).1 } := by
  cases r with
  | addDataCellpoints w a' n cs =>
    obtain rfl : a' = a := hc
    have e1 : (RCall.run (.addDataCellpoints w a' n cs) h).1.arrs a'
        = resAfter (h.writers w) (h.arrs a') := Function.update_self _ _ _
    have e2 : (RCall.run (.addDataCellpoints w a' n cs) h).2
        = (addDataCellpoints (h.arrs a') n cs (h.writers w)).2 := rfl
    rw [e1, e2]
    simp only [cellpoints_type_error]
    rcases ha w with e | e
    · simp [e, resAfter]
    · simp [e, resAfter]
  | _ => exact hc.elim

theorem res_from {a o t : Nat} {types : List Nat} {blocks : List (List (List Byte))}
    {rest : List (List Byte)} (hlen : types.length = blocks.length)
    (hok : ∀ p ∈ types.zip blocks, p.1 = 26 → p.2.length = 6)
    (calls : List RCall) (h : Heap) (m : Nat) (v : Arr)
    (hc : h.arrs a = { v with rows := (inResOrder m types blocks).flatten ++ rest })
    (hoff : (h.ints o).vals = ends 0 blocks) (htyp : (h.ints t).vals = types)
    (honly : ∀ r ∈ calls, r.OnlyRes a o t) (hall : AllCur (ends 0 blocks) types h) :
    (runs h calls).2.arrs a = { v with
      rows := (inResOrder (m + ((runs h calls).1.filter fun p =>
        p.1.Results a ∧ p.2 ≠ some .typeError).length) types blocks).flatten ++ rest } := by
  induction calls generalizing h m with
  | nil => exact hc
  | cons r rs ih =>
    have hi := run_ints r h
    have hor := honly r (by simp)
    have hall' : AllCur (ends 0 blocks) types (r.run h).1 := by
      rw [← hoff, ← htyp]
      exact allCur_run hor (by rw [hoff, htyp]; exact hall)
    have step := fun k hk => ih (r.run h).1 k hk (by rw [hi]; exact hoff) (by rw [hi]; exact htyp)
      (fun q hq => honly q (by simp [hq])) hall'
    simp only [runs]
    by_cases hcr : r.Results a
    · have h1 := run_res hcr hall
      by_cases he : (r.run h).2 = some .typeError
      · rw [if_pos he] at h1
        rw [step m (h1.trans hc)]
        simp [he]
      · rw [if_neg he] at h1
        rw [step (m + 1) (by rw [h1, hc]; simp only [reorder_inResOrder rest hlen hok m])]
        simp only [List.filter_cons, hcr, he, decide_true, ne_eq, not_false_eq_true, and_self,
          if_true, List.length_cons]
        rw [Nat.add_assoc, Nat.add_comm 1]
    · rw [step m ((run_res_other h hor hcr).trans hc)]
      simp [hcr]

/-! ## property theorems: results -/

/-- **C78.** The caller's array of element results after any calls of any writers whose pieces
have these elements: the results of every element have been put in VTK order as many times as the
array was given to `add_data_cellpoints` after a piece was begun, whether the call returned or was
refused (without a piece: TypeError, nothing is done). -/
theorem results_again {a o t : Nat} {types : List Nat} {blocks : List (List (List Byte))}
    {rest : List (List Byte)} (hlen : types.length = blocks.length)
    (hok : ∀ p ∈ types.zip blocks, p.1 = 26 → p.2.length = 6)
    (calls : List RCall) (h : Heap) (hc : (h.arrs a).rows = blocks.flatten ++ rest)
    (hoff : (h.ints o).vals = ends 0 blocks) (htyp : (h.ints t).vals = types)
    (honly : ∀ r ∈ calls, r.OnlyRes a o t) (hall : AllCur (ends 0 blocks) types h) :
    (runs h calls).2.arrs a = { h.arrs a with
      rows := (inResOrder ((runs h calls).1.filter fun p =>
        p.1.Results a ∧ p.2 ≠ some .typeError).length types blocks).flatten ++ rest } := by
  have h0 : inResOrder 0 types blocks = blocks := by
    simp only [inResOrder, Function.iterate_zero, id]
    clear hok htyp hoff hc hall
    induction blocks generalizing types with
    | nil => simp
    | cons b bs ih =>
      match types, hlen with
      | t :: ts, hlen => simp [ih (types := ts) (by simpa using hlen)]
  have := res_from hlen hok calls h 0 (h.arrs a) (by rw [h0, ← hc]) hoff htyp honly hall
  simpa using this

/-- **C78.** What is written when the array of results is given once more and the call returns:
the results in VTK order once more. -/
theorem results_written {a o t : Nat} {types : List Nat} {blocks : List (List (List Byte))}
    {rest : List (List Byte)} (hlen : types.length = blocks.length)
    (hok : ∀ p ∈ types.zip blocks, p.1 = 26 → p.2.length = 6)
    (calls : List RCall) (h : Heap) (hc : (h.arrs a).rows = blocks.flatten ++ rest)
    (hoff : (h.ints o).vals = ends 0 blocks) (htyp : (h.ints t).vals = types)
    (honly : ∀ r ∈ calls, r.OnlyRes a o t) (hall : AllCur (ends 0 blocks) types h)
    (w : Nat) (n : Str) (cs : List Str) {doc : Doc} {p : Piece}
    (hrel : Rel ((runs h calls).2.writers w) (doc ++ [p])) (hp : p.offsets.vals = ends 0 blocks)
    (hp' : p.types.vals = types)
    (hlast : (RCall.run (.addDataCellpoints w a n cs) (runs h calls).2).2 = none) :
    ∃ ss s, p.sections = ss ++ [s] ∧
      Rel ((RCall.run (.addDataCellpoints w a n cs) (runs h calls).2).1.writers w)
        (doc ++ [{ p with sections := ss ++ [⟨s.kind, s.arrays ++ [⟨{ h.arrs a with
          rows := (inResOrder (((runs h calls).1.filter fun p =>
            p.1.Results a ∧ p.2 ≠ some .typeError).length + 1) types blocks).flatten ++ rest },
          n, cs⟩]⟩] }]) := by
  have h1 := results_again hlen hok calls h hc hoff htyp honly hall
  generalize ((runs h calls).1.filter fun p =>
    p.1.Results a ∧ p.2 ≠ some .typeError).length = k at *
  generalize (runs h calls).2 = g at *
  have hw : (RCall.run (.addDataCellpoints w a n cs) g).1.writers w
      = (addDataCellpoints (g.arrs a) n cs (g.writers w)).1 := Function.update_self _ _ _
  rw [hw]
  obtain ⟨d', hd, hr⟩ := step_ok (c := .addDataCellpoints (g.arrs a) n cs) hrel (by simp)
    (Prod.ext rfl hlast : addDataCellpoints (g.arrs a) n cs (g.writers w) = (_, none))
  generalize hdoc : doc ++ [p] = dd at hd
  cases hd with
  | addCellpoints d q ss s _ _ _ rows hsec hre =>
    obtain ⟨rfl, hq⟩ := List.append_inj' hdoc rfl
    obtain rfl : p = q := by simpa using hq
    refine ⟨ss, s, hsec, ?_⟩
    rw [h1, hp, hp'] at hre
    simp only [reorder_inResOrder rest hlen hok] at hre
    obtain rfl := (congrArg Prod.fst hre).symm
    rw [h1] at hr ⊢
    exact hr

/-! ## a concrete case: a triangle with six nodes and an eight node shell in two files -/

/-- node numbers, and results per node, of one byte each -/
def exAgain : Heap where
  arrs := fun a => ⟨"int8", 1, [], ((List.range 14).map fun i => [UInt8.ofNat (20 * a + i)])⟩
  ints := fun a => if a = 0 then ⟨"int32", 4, [6, 14]⟩ else ⟨"int32", 4, [26, 28]⟩
  writers := fun _ => emptySt

/-- the mesh (array 1) with results (array 2) in the files of writers 0 and 1; the results are
first given too early -/
def exFile (w : Nat) : List RCall :=
  [.create w, .newPiece w 0 1 0 1, .addDataCellpoints w 2 "early".toList [], .startPointdata w,
   .addDataCellpoints w 2 "stress".toList [], .close w]

def exBlocks (a : Nat) : List (List (List Byte)) :=
  [(List.range 6).map fun i => [UInt8.ofNat (20 * a + i)],
   (List.range 8).map fun i => [UInt8.ofNat (20 * a + 6 + i)]]

/-- hypotheses of `connectivity_again` and `piece_again` (second file) -/
example := connectivity_again (c := 1) (o := 0) (t := 1) (types := [26, 28])
  (blocks := exBlocks 1) (rest := []) rfl (by decide) (exFile 0 ++ [.create 1]) exAgain
  (by decide +kernel) (by decide) (by decide) (by simp [exFile, RCall.Only])
  (by decide +kernel)
example : ∃ piece, Rel ((RCall.run (.newPiece 1 0 1 0 1)
    (runs exAgain (exFile 0 ++ [.create 1])).2).1.writers 1) ([] ++ [piece]) ∧
    piece.con.rows = (inOrder 2 [26, 28] (exBlocks 1)).flatten ++ [] := by
  obtain ⟨piece, h1, -, -, -, -, h2⟩ := piece_again (c := 1) (o := 0) (t := 1)
    (types := [26, 28]) (blocks := exBlocks 1) (rest := []) rfl (by decide)
    (exFile 0 ++ [.create 1]) exAgain (by decide +kernel) (by decide) (by decide)
    (by simp [exFile, RCall.Only]) (by decide +kernel) 1 0 (by decide)
    (by rw [show (runs exAgain (exFile 0 ++ [.create 1])).2.writers 1 = init.1 by decide +kernel]
        exact rel_init.2) (by decide +kernel)
  exact ⟨piece, h1, h2⟩

/-- hypotheses of `results_again`: the results were given twice, refused the first time -/
example : (runs exAgain (exFile 0)).1.map Prod.snd
    = [none, none, some .vtkError, none, none, none] := by decide +kernel
example := results_again (a := 2) (o := 0) (t := 1) (types := [26, 28])
  (blocks := exBlocks 2) (rest := []) rfl (by decide) (exFile 0) exAgain
  (by decide +kernel) (by decide) (by decide) (by simp [exFile, RCall.OnlyRes])
  (fun _ => .inl rfl)

/-- the writer a call is made on -/
def RCall.writer : RCall → Option Nat
  | .create w => some w
  | .newPiece w _ _ _ _ => some w
  | .startPointdata w => some w
  | .startCelldata w => some w
  | .addData w _ _ _ => some w
  | .addDataCellpoints w _ _ _ => some w
  | .close w => some w
  | .assign _ _ => none

/-- **C78.** Calls on other writers do not change what a writer has written, nor its state. -/
theorem others_kept (h : Heap) (calls : List RCall) (w : Nat)
    (hw : ∀ r ∈ calls, r.writer ≠ some w) : (runs h calls).2.writers w = h.writers w := by
  induction calls generalizing h with
  | nil => rfl
  | cons r rs ih =>
    simp only [runs]
    rw [ih _ (fun q hq => hw q (by simp [hq]))]
    have := hw r (by simp)
    cases r with
    | assign a v => rfl
    | _ => exact Function.update_of_ne (fun e => this (by simp [RCall.writer, e])) _ _

example := others_kept exAgain (exFile 1) 0 (by decide)

/-- **C78** (refutation of the expectation): with the same arrays the second file does not hold
the elements of the first; with results given again after a refused call they are wrong already
in the first. -/
theorem same_arrays_differ :
    let h1 := (runs exAgain (exFile 0)).2
    let h2 := (runs exAgain (exFile 0 ++ exFile 1)).2
    (h1.arrs 1).rows ≠ (h2.arrs 1).rows ∧ (h1.writers 0).out ≠ (h2.writers 1).out ∧
    (h1.arrs 2).rows ≠ (List.zipWith vtkResOrder [26, 28] (exBlocks 2)).flatten := by
  decide +kernel

/-- if the caller gives a copy every time, every file holds the same -/
def exCopy (w : Nat) : List RCall :=
  .assign 1 (exAgain.arrs 1) :: .assign 2 (exAgain.arrs 2) :: exFile w

example : ((runs exAgain (exCopy 0)).2.writers 0).out
    = ((runs exAgain (exCopy 0 ++ exCopy 1)).2.writers 1).out := by decide +kernel

end Verif.Vtu
