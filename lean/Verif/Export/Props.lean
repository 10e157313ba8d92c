import Verif.Export.Spec
import Verif.Data.StrucProps
/-!
# Writing a mesh and its results to a VTU file (property theorems)
-/

namespace Verif.Export
open Verif Verif.Vtu Verif.Data

variable {K : Type}

/-! ### the writer: one piece with point data -/

theorem outcomes_append (s : St) (a b : List Call) :
    outcomes s (a ++ b) =
      ((outcomes s a).1 ++ (outcomes (outcomes s a).2 b).1, (outcomes (outcomes s a).2 b).2) := by
  induction a generalizing s with
  | nil => simp [outcomes]
  | cons c cs ih => simp [outcomes, ih]

/-- point data calls on a piece: `add_data`, or `add_data_cellpoints` with the reordered rows -/
inductive Adds (p : Piece) : Call → DataArr → Prop
  | plain (a : Arr) (n : Vtu.Str) (cs : List Vtu.Str) : Writable a → Adds p (.addData a n cs) ⟨a, n, cs⟩
  | cell (a : Arr) (n : Vtu.Str) (cs : List Vtu.Str) (rows : List (List Byte)) :
      reorderData resTable a.rows 0 p.offsets.vals p.types.vals = (rows, none) →
      Writable { a with rows := rows } →
      Adds p (.addDataCellpoints a n cs) ⟨{ a with rows := rows }, n, cs⟩

theorem adds_run {s : St} {p : Piece} {sec : Section} (hsec : p.sections = [sec])
    (h : InData s [p]) {c : Call} {da : DataArr} (ha : Adds p c da) :
    ∃ s', c.run s = (s', none) ∧
      InData s' [{ p with sections := [⟨sec.kind, sec.arrays ++ [da]⟩] }] := by
  have key : ∀ a n cs, Writable a → ∃ s', addData a n cs s = (s', none) ∧
      s.cur = some (p.offsets.vals, p.types.vals) ∧
      InData s' [{ p with sections := [⟨sec.kind, sec.arrays ++ [⟨a, n, cs⟩]⟩] }] := by
    intro a n cs hw
    obtain ⟨x, hx, e⟩ := writeArray_writable a n cs s h.fileOpen hw
    obtain ⟨ds, q, ss, sec', hd, hs', hcur, hin⟩ := h.add hx rfl
    rcases ds with _ | ⟨y, ys⟩
    · simp only [List.nil_append, List.cons.injEq, and_true] at hd
      subst hd
      rw [hsec] at hs'
      rcases ss with _ | ⟨y, ys⟩
      · simp only [List.nil_append, List.cons.injEq, and_true] at hs'
        subst hs'
        refine ⟨_, by rw [addData_inData _ _ _ h]; exact e, hcur, ?_⟩
        simpa using hin
      · simp at hs'
    · simp at hd
  cases ha with
  | plain a n cs hw =>
    obtain ⟨s', h1, -, h2⟩ := key a n cs hw
    exact ⟨s', h1, h2⟩
  | cell a n cs rows hr hw =>
    obtain ⟨s', h1, h3, h2⟩ := key _ n cs hw
    refine ⟨s', ?_, h2⟩
    simp only [Call.run, addDataCellpoints, h3, hr]
    exact h1

theorem adds_all {p : Piece} {calls : List Call} {das : List DataArr} (hd : List.Forall₂ (Adds p) calls das)
    {s : St} {before : List DataArr} (h : InData s [{ p with sections := [⟨.point, before⟩] }]) :
    (∀ r ∈ (outcomes s calls).1, r.2 = none) ∧
      InData (outcomes s calls).2 [{ p with sections := [⟨.point, before ++ das⟩] }] := by
  induction hd generalizing s before with
  | nil => simpa [outcomes] using h
  | @cons c da cs das h1 h2 ih =>
    have h1' : Adds { p with sections := [⟨.point, before⟩] } c da := by
      cases h1 with
      | plain a n cs hw => exact .plain a n cs hw
      | cell a n cs rows hr hw => exact .cell a n cs rows hr hw
    obtain ⟨s', e, hin⟩ := adds_run rfl h h1'
    obtain ⟨h3, h4⟩ := ih hin
    simp only [outcomes, e, List.mem_cons]
    refine ⟨?_, by simpa using h4⟩
    rintro r (rfl | hr)
    · rfl
    · exact h3 r hr

theorem vtk_unique {ts v w : List Nat} (h : List.Forall₂ (fun a b => (a, b) ∈ vtkCellTypes) ts v)
    (h' : List.Forall₂ (fun a b => (a, b) ∈ vtkCellTypes) ts w) : v = w := by
  induction h generalizing w with
  | nil => cases h'; rfl
  | cons a b ih =>
    cases h' with
    | cons a' b' =>
      have := ((vtkTypeId_iff _ _).mpr a).symm.trans ((vtkTypeId_iff _ _).mpr a')
      rw [Option.some.inj this, ih b']

/-- One piece with point data: all calls return, and the file holds the piece with the arrays. -/
theorem written_piece {pts con : Arr} {offs typs : IArr} {rows : List (List Byte)} {vt : List Nat}
    (h1 : Writable pts) (h2 : reorderData conTable con.rows 0 offs.vals typs.vals = (rows, none))
    (h3 : Writable { con with rows := rows }) (h4 : Writable offs.toArr) (h5 : typs.vals ≠ [])
    (h6 : List.Forall₂ (fun a b => (a, b) ∈ vtkCellTypes) typs.vals vt)
    (h7 : Writable (IArr.toArr ⟨"int64", 8, vt⟩)) {data : List Call} {das : List DataArr}
    (hd : List.Forall₂ (Adds ⟨pts, { con with rows := rows }, offs, typs, ⟨"int64", 8, vt⟩, []⟩)
      data das) :
    ∃ out, Written (exportCalls (.newPiece pts con offs typs) data) out ∧
      Holds1 out ⟨pts, { con with rows := rows }, offs, typs, ⟨"int64", 8, vt⟩, [⟨.point, das⟩]⟩ := by
  obtain ⟨s1, e1⟩ := newPiece_complete rel_init.2 h1 h2 h3 h4 h5 vt h6 h7
  obtain ⟨d1, hd1, r1⟩ := newPiece_ok rel_init.2 e1
  have hd1' : d1 = [⟨pts, { con with rows := rows }, offs, typs, ⟨"int64", 8, vt⟩, []⟩] := by
    generalize hg : ([] : Doc) = g at hd1
    generalize hcall : Call.newPiece pts con offs typs = cc at hd1
    cases hd1 with
    | newPiece d _ _ _ _ rows' vt' hr' ht' =>
      subst hg
      cases hcall
      rw [h2] at hr'
      cases hr'
      rw [vtk_unique ht' h6]
      rfl
    | _ => cases hcall
  subst hd1'
  rcases start_point r1 with ⟨h0, -⟩ | ⟨s2, d2, e2, hd2, r2⟩
  · cases h0
  have hd2' : d2 = [⟨pts, { con with rows := rows }, offs, typs, ⟨"int64", 8, vt⟩, [⟨.point, []⟩]⟩] := by
    generalize hg : [(⟨pts, { con with rows := rows }, offs, typs, ⟨"int64", 8, vt⟩, []⟩ : Piece)] = g
      at hd2
    generalize hcall : Call.startPointdata = cc at hd2
    cases hd2 with
    | startPoint d q =>
      rcases d with _ | ⟨y, ys⟩
      · simp only [List.nil_append, List.cons.injEq, and_true] at hg
        subst hg
        rfl
      · simp at hg
    | _ => cases hcall
  subst hd2'
  have hin : InData s2 [⟨pts, { con with rows := rows }, offs, typs, ⟨"int64", 8, vt⟩, [⟨.point, []⟩]⟩] := by
    rcases r2 with ⟨h0, -⟩ | ⟨-, hp⟩ | h
    · cases h0
    · exact absurd (hp _ rfl) (by simp)
    · exact h
  obtain ⟨h8, h9⟩ := adds_all (before := []) hd hin
  obtain ⟨s', x, hc, hx, ho, -⟩ := close_rel (.inr (.inr h9))
  refine ⟨s'.out, ⟨?_, s', ?_, rfl⟩, x, by simpa using hx, ho⟩
  · intro r hr
    simp only [exportCalls, outcomes, Call.run, e1, e2, List.mem_cons] at hr
    rcases hr with rfl | rfl | hr
    · rfl
    · rfl
    · exact h8 r hr
  · simp only [exportCalls, outcomes, Call.run, e1, e2]
    exact hc

end Verif.Export
