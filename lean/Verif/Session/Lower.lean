import Verif.Session.Open
import Verif.Data.LoadHydroProps
/-!
# The groups of a converted hierarchy
-/

namespace Verif.Session
open Verif Verif.Seq Verif.Parse Verif.Conv Verif.Data Verif.Data.Life Verif.Data.Load

/-- group `p` of the two files is the same: attributes and tables -/
def SameGroup (h h' : H5) (p : Path) : Prop :=
  h'.groups p = h.groups p ∧ ∀ n, h'.tabs (p, n) = h.tabs (p, n)

theorem SameGroup.rfl' {h : H5} {p : Path} : SameGroup h h p := ⟨rfl, fun _ => rfl⟩

theorem SameGroup.trans {h1 h2 h3 : H5} {p : Path} (a : SameGroup h1 h2 p) (b : SameGroup h2 h3 p) :
    SameGroup h1 h3 p := ⟨b.1.trans a.1, fun n => (b.2 n).trans (a.2 n)⟩

section
variable {K V : Type} {num : PyF → K} {cplx : PyF → PyF → V} {h h' : H5} {p : Path}

theorem table_congr {β : Type} (e : SameGroup h h' p) (n : String) (f : Row → Except Err β) :
    table h' p n f = table h p n f := by
  unfold table
  rw [e.2]

theorem tableArr_congr {β γ : Type} (e : SameGroup h h' p) (n arr : String)
    (f : Row → Except Err β) (g : Cell → Except Err γ) :
    tableArr h' p n arr f g = tableArr h p n arr f g := by
  unfold tableArr
  rw [e.2]

theorem loadStruc_congr (e : SameGroup h h' p) : loadStruc num h' p = loadStruc num h p := by
  unfold loadStruc
  simp only [e.1, table_congr e, tableArr_congr e]

theorem loadTop_congr (e : SameGroup h h' p) : loadTop num h' p = loadTop num h p := by
  unfold loadTop
  simp only [e.1, table_congr e]

theorem loadHydro_congr (e : SameGroup h h' p) :
    loadHydro num cplx h' p = loadHydro num cplx h p := by
  unfold loadHydro loadRefs
  simp only [e.1, e.2, table_congr e, tableArr_congr e]

end

section
variable {only : Option (List String)} {sk : LRec → Bool} {e0 : Int → Option Int} {f : List LRec}
  {outs : List Added} {names : List String} {s : Int} {h h1 : H5} {lev dt : String}
  {ix : Option (Option Int)}

/-- a file converted at the top changes its group only -/
theorem top_same {pre ft : String} (c : Converted outs names (.top pre ft) s h lev dt ix h1)
    {q : Path} (hq : q ≠ [pre ++ ft ++ toString s]) (hne : q ≠ []) : SameGroup h h1 q := by
  obtain ⟨recs, -, -, -, hg⟩ := c.groups
  refine ⟨hg q ?_ hq, fun n => c.tables.2 (q, n) (.inl hq)⟩
  left
  intro hpre
  have hl := hpre.length_le
  obtain ⟨t, ht⟩ := hpre
  match q, hne with
  | [x], _ =>
    simp only [Place.path, List.cons_append, List.cons.injEq] at ht
    exact hq (by rw [ht.1])
  | _ :: _ :: _, _ => simp [Place.path] at hl

/-- a lower level file changes its group only; there is a group with tables for it afterwards -/
theorem low_same {pre ft : String} {topSel : Int} {idx : Option Int} {hp : Path} {hrec : List Cell}
    (c : Converted outs names (.low pre ft topSel idx hp hrec) s h lev dt ix h1)
    (htop : ∃ a, h.groups [pre ++ ft ++ toString topSel] = some a)
    {q : Path} (hq : q ≠ (Place.low pre ft topSel idx hp hrec).path s) (hne : q ≠ []) :
    SameGroup h h1 q := by
  obtain ⟨recs, -, -, hg1, hg2⟩ := c.groups
  refine ⟨?_, fun n => c.tables.2 (q, n) (.inl hq)⟩
  by_cases hpre : q <+: (Place.low pre ft topSel idx hp hrec).path s
  · rw [hg1 q hpre hne hq]
    obtain ⟨a, ha⟩ := htop
    have : q = [pre ++ ft ++ toString topSel] := by
      have hl := hpre.length_le
      obtain ⟨t, ht⟩ := hpre
      match q, hne with
      | [x], _ =>
        simp only [Place.path, List.cons_append, List.cons.injEq] at ht
        rw [ht.1]
      | [x, y], _ =>
        have : t = [] := by
          have := congrArg List.length ht
          simp [Place.path] at this
          exact this
        subst this
        rw [List.append_nil] at ht
        exact absurd ht hq
      | _ :: _ :: _ :: _, _ => simp [Place.path] at hl
    rw [this, ha]
    rfl
  · exact hg2 q (.inl hpre) hq

/-- the group of a converted file has a table -/
theorem has_table {pl : Place} (j : Job only sk e0 f outs names pl s h lev dt ix)
    (c : Converted outs names pl s h lev dt ix h1) :
    ∃ l ∈ layouts, h1.tabs (pl.path s, l.name) ≠ none := by
  obtain ⟨o, ho, hcase⟩ := j.gives
  have hmem : o ∈ outs := by
    cases outs with
    | nil => simp at ho
    | cons a l => simp at ho; simp [ho]
  have key : ∀ l ∈ layouts, l.name = o.name → ∃ l ∈ layouts, h1.tabs (pl.path s, l.name) ≠ none := by
    intro l hl hn
    refine ⟨l, hl, ?_⟩
    rw [c.tables.1 l hl (by
      intro hnil
      have : o ∈ ofType l.name outs := by
        unfold ofType
        simp [hmem, hn]
      rw [hnil] at this
      simp at this)]
    simp
  have hin : o.name ∈ layouts.map (·.name) := by
    have h1 : "IDENT" ∈ layouts.map (·.name) := by decide +kernel
    have h2 : "HIERARCH" ∈ layouts.map (·.name) := by decide +kernel
    rcases hcase with ⟨e, -⟩ | ⟨e, -⟩ <;> rw [e]
    · exact h1
    · exact h2
  obtain ⟨l, hl, hn⟩ := List.mem_map.mp hin
  exact key l hl hn
end

section
variable {D : Dec} {only : Option (List String)} {disk : Str → Option Bytes} {dir fp ext : Str}
  {formatted : Bool} {pre ft : String} {topSel : Int} {hp : Path} {all rows : List (List Cell)}
  {h h' : H5} {ms : List Str}

/-- lower level files change subgroups only -/
theorem lower_same (hl : LowerFiles D only disk dir fp ext formatted pre ft topSel hp all rows h h' ms)
    (htop : ∃ a, h.groups [pre ++ ft ++ toString topSel] = some a) {q : Path} (hne : q ≠ [])
    (hq : ∀ m, q ≠ [pre ++ ft ++ toString topSel, m]) : SameGroup h h' q := by
  induction hl with
  | nil => exact .rfl'
  | skip _ _ ih => exact ih htop
  | missing _ _ _ ih => exact ih htop
  | file _ _ _ _ _ _ c _ ih =>
    have hs := low_same c htop (q := q) (hq _) hne
    have ht := low_same c htop (q := [pre ++ ft ++ toString topSel]) (by simp [Place.path]) (by simp)
    exact hs.trans (ih (by rw [ht.1]; exact htop))

/-- a group that has a table is not written again -/
theorem lower_keeps (hl : LowerFiles D only disk dir fp ext formatted pre ft topSel hp all rows h h' ms)
    (htop : ∃ a, h.groups [pre ++ ft ++ toString topSel] = some a) {q : Path} (hne : q ≠ [])
    (hq : ∃ l ∈ layouts, h.tabs (q, l.name) ≠ none) : SameGroup h h' q := by
  induction hl with
  | nil => exact .rfl'
  | skip _ _ ih => exact ih htop hq
  | missing _ _ _ ih => exact ih htop hq
  | file _ _ _ _ _ j c _ ih =>
    obtain ⟨l, hl, hn⟩ := hq
    have hs := low_same c htop (q := q) (fun e => hn (by rw [e]; exact j.free l hl)) hne
    have ht := low_same c htop (q := [pre ++ ft ++ toString topSel]) (by simp [Place.path]) (by simp)
    exact hs.trans (ih (by rw [ht.1]; exact htop) ⟨l, hl, by rw [hs.2]; exact hn⟩)

/-- the subgroups have a level -/
theorem lower_levels (hl : LowerFiles D only disk dir fp ext formatted pre ft topSel hp all rows h h' ms)
    (htop : ∃ a, h.groups [pre ++ ft ++ toString topSel] = some a) (m : String) :
    h'.groups [pre ++ ft ++ toString topSel, m] = h.groups [pre ++ ft ++ toString topSel, m] ∨
    ∃ a l, h'.groups [pre ++ ft ++ toString topSel, m] = some a ∧ a.level = some l := by
  induction hl with
  | nil => exact .inl rfl
  | skip _ _ ih => exact ih htop
  | missing _ _ _ ih => exact ih htop
  | @file row rows h h' ms name k b hrec idx sk f outs names s lev dt ix h1 _ _ _ _ _ j c _ ih =>
    have ht := low_same c htop (q := [pre ++ ft ++ toString topSel]) (by simp [Place.path]) (by simp)
    rcases ih (by rw [ht.1]; exact htop) with e | e
    · by_cases hm : [pre ++ ft ++ toString topSel, m] = (Place.low pre ft topSel idx hp hrec).path s
      · obtain ⟨recs, -, hg, -⟩ := c.groups
        refine .inr ⟨_, lev, by rw [e, hm]; exact hg, rfl⟩
      · exact .inl (e.trans (low_same c htop hm (by simp)).1)
    · exact .inr e

theorem wanted_unique {row : List Cell} {n n' : Str} {r r' : Int} (h1 : Wanted fp ext row n r)
    (h2 : Wanted fp ext row n' r') : n = n' ∧ r = r' := by
  have inj : ∀ {i : Nat} {a b : Int}, HasField row i a → HasField row i b → a = b := by
    intro i a b ha hb
    unfold HasField at ha hb
    rw [ha] at hb
    simpa using hb
  cases h1 with
  | results e _ t1 r1 =>
    cases h2 with
    | results _ _ t2 r2 =>
      cases inj t1 t2
      cases inj r1 r2
      exact ⟨rfl, rfl⟩
    | input e' => exact absurd e e'
  | input e _ t1 r1 =>
    cases h2 with
    | results e' => exact absurd e' e
    | input _ _ t2 r2 =>
      cases inj t1 t2
      cases inj r1 r2
      exact ⟨rfl, rfl⟩

theorem unwanted_not {row : List Cell} {n : Str} {r : Int} (h1 : Unwanted ext row)
    (h2 : Wanted fp ext row n r) : False := by
  have inj : ∀ {i : Nat} {a b : Int}, HasField row i a → HasField row i b → a = b := by
    intro i a b ha hb
    unfold HasField at ha hb
    rw [ha] at hb
    simpa using hb
  cases h1 with
  | results e l1 n1 =>
    cases h2 with
    | results _ l2 => exact n1 (inj l1 l2)
    | input e' => exact e' e
  | input e l1 n1 =>
    cases h2 with
    | results e' => exact e e'
    | input _ l2 => exact n1 (inj l1 l2)

/-- every lower level file on disk has its group in the end -/
theorem lower_objects (hl : LowerFiles D only disk dir fp ext formatted pre ft topSel hp all rows h h' ms)
    (htop : ∃ a, h.groups [pre ++ ft ++ toString topSel] = some a) {row : List Cell}
    (hrow : row ∈ rows) {name : Str} {r : Int} {b : Bytes} (hw : Wanted fp ext row name r)
    (hb : disk (dir ++ name) = some b) :
    ∃ (k : Nat) (hrec : List Cell) (idx : Option Int) (sk : LRec → Bool) (f : List LRec)
      (outs : List Added) (names : List String) (s : Int) (h0 h1 : H5) (lev dt : String)
      (ix : Option (Option Int)),
      r = k + 1 ∧ all[k]? = some hrec ∧ IndexOf ft hrec idx ∧
      Encoded D sk f (sourceOf formatted b) ∧
      Job only sk (fun _ => none) f outs names (.low pre ft topSel idx hp hrec) s h0 lev dt ix ∧
      Converted outs names (.low pre ft topSel idx hp hrec) s h0 lev dt ix h1 ∧
      SameGroup h1 h' ((Place.low pre ft topSel idx hp hrec).path s) := by
  induction hl with
  | nil => simp at hrow
  | skip hu _ ih =>
    rcases List.mem_cons.mp hrow with rfl | hrow
    · exact (unwanted_not hu hw).elim
    · exact ih htop hrow
  | missing hw' hd _ ih =>
    rcases List.mem_cons.mp hrow with rfl | hrow
    · obtain ⟨rfl, -⟩ := wanted_unique hw hw'
      rw [hd] at hb
      cases hb
    · exact ih htop hrow
  | file hw' hd hk hi henc j c hmore ih =>
    have ht := low_same c htop (q := [pre ++ ft ++ toString topSel]) (by simp [Place.path]) (by simp)
    rw [← ht.1] at htop
    rcases List.mem_cons.mp hrow with rfl | hrow
    · obtain ⟨rfl, rfl⟩ := wanted_unique hw hw'
      rw [hd] at hb
      cases hb
      exact ⟨_, _, _, _, _, _, _, _, _, _, _, _, _, rfl, hk, hi, henc, j, c,
        lower_keeps hmore htop (by simp [Place.path]) (has_table j c)⟩
    · exact ih htop hrow

end
end Verif.Session
