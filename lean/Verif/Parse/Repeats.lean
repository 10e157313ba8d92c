import Verif.Parse.StoreLemmas
/-!
# WDRESREF records that give a reference type more than once

`Means` covers records in which no reference type is repeated.  Here: the pairs of all groups of a
type are stored, in order, and the row refers to the last of them.
-/

namespace Verif.Parse
open Verif Verif.Seq

/-- the groups of pairs of type `k`, in the order of the record -/
inductive GroupsOf (k : Int) : List (Int × List Val) → List (List Val) → Prop
  | nil : GroupsOf k [] []
  | this {vs ts gs} : GroupsOf k ts gs → GroupsOf k ((k, vs) :: ts) (vs :: gs)
  | other {j vs ts gs} : j ≠ k → GroupsOf k ts gs → GroupsOf k ((j, vs) :: ts) gs

/-- start and stop in an array that holds `len` items: those of the last group, if there is one -/
inductive LastSpan (len : Nat) : List (List Cell) → Nat × Nat → Prop
  | none : LastSpan len [] (0, 0)
  | empty {gs} : LastSpan len (gs ++ [[]]) (0, 0)
  | some {gs g} : g ≠ [] →
      LastSpan len (gs ++ [g]) (len + gs.flatten.length, len + gs.flatten.length + g.length)

theorem wdresrefAdds_groups {k : Int} {ts : List (Int × List Val)} {gs : List (List Val)}
    (h : GroupsOf k ts gs) : wdresrefAdds k ts = gs := by
  unfold wdresrefAdds
  induction h with
  | nil => rfl
  | this _ ih => rw [List.filter_cons_of_pos (by simp), List.map_cons, ih]
  | other hj _ ih => rw [List.filter_cons_of_neg (by simpa using hj), ih]

theorem VInv.adds {a0 a : Arr} {v : Vl} {items : List Cell} {last : Nat × Nat}
    (h : VInv a0 a v items last) {vss : List (List Val)} {css : List (List Cell)}
    (hs : List.Forall₂ (List.Forall₂ (Stored a0.kind a0.shape)) vss css) :
    ∃ l, VInv a0 a (v.adds vss) (items ++ css.flatten) l ∧
      (l = last ∧ css = [] ∨ css ≠ [] ∧ LastSpan items.length css l) := by
  induction hs generalizing v items last with
  | nil => exact ⟨last, by simpa [Vl.adds] using h, .inl ⟨rfl, rfl⟩⟩
  | @cons vs cs vss css h1 h2 ih =>
    obtain ⟨l, i1, i2⟩ := ih (h.add h1)
    refine ⟨l, by simpa [Vl.adds] using i1, .inr ⟨by simp, ?_⟩⟩
    rcases i2 with ⟨rfl, rfl⟩ | ⟨hne, i2⟩
    · cases cs with
      | nil => exact .empty (gs := [])
      | cons c cs =>
        have := LastSpan.some (len := items.length) (gs := []) (g := c :: cs) (by simp)
        simpa [interval] using this
    · generalize hm : (items ++ cs).length = m at i2
      cases i2 with
      | none => exact absurd rfl hne
      | @empty gs => exact .empty (gs := cs :: gs)
      | @some gs g hg =>
        have := LastSpan.some (len := items.length) (gs := cs :: gs) hg
        have e : m = items.length + cs.length := by rw [← hm, List.length_append]
        simpa [e, Nat.add_assoc] using this

section
variable {env : Env} {a b c d : PyF} {vals pad : List PyF}

/-- **C09** (repeated references) The reader of a WDRESREF record consumes the whole record,
whichever reference types are given, how often and in which order. -/
theorem references_read {name : String} {n m : Int} {ts : List (Int × List Val)}
    {dir freq time : List (List Val)} (hc : HasInt c n) (hd : HasInt d m)
    (h : RefTypes n.toNat m.toNat vals ts) (h1 : GroupsOf 1 ts dir) (h2 : GroupsOf 2 ts freq)
    (h3 : GroupsOf 3 ts time) :
    Reads (wdresrefBody name env [a, b, c, d]) ⟨name, [a, b, c, d], [], 0, vals, pad⟩
      (env, ⟨numbers [a, b, c, d], [dir, freq, time]⟩)
      ⟨name, [a, b, c, d], [], 0, [], pad⟩ := by
  refine Reads.bind (Reads.intAt (x := d) rfl hd _) ?_
  refine Reads.bind (refTypes_reads hc h) ?_
  rw [wdresrefAdds_groups h1, wdresrefAdds_groups h2, wdresrefAdds_groups h3]
  exact Reads.ret _ _

/-- **C09** (repeated references) A block of one WDRESREF record: all its pairs are appended to the
arrays, in order, and start and stop of the row give the last group of each type (0, 0 if there is
none). -/
theorem references_stored (B : Nat) {l : Layout} (t : Acc) {x y z : Arr} (hl : l.arrs = [x, y, z])
    {ix iy iz : List Cell} (ht : t.arrs = [ix, iy, iz]) {row : List Val} {cells : List Cell}
    (hr : StoredRow l.cols row cells) {dir freq time : List (List Val)}
    {cx cy cz : List (List Cell)}
    (h1 : List.Forall₂ (List.Forall₂ (Stored x.kind x.shape)) dir cx)
    (h2 : List.Forall₂ (List.Forall₂ (Stored y.kind y.shape)) freq cy)
    (h3 : List.Forall₂ (List.Forall₂ (Stored z.kind z.shape)) time cz) :
    ∃ w w' px py pz, (Work.open (t.table l)).add B ⟨row, [dir, freq, time]⟩ = .ok w ∧
      w.write = .ok w' ∧
      LastSpan ix.length cx px ∧ LastSpan iy.length cy py ∧ LastSpan iz.length cz pz ∧
      w'.tab.rows = t.rows ++ [cells ++ limits [px, py, pz]] ∧
      w'.tab.arrs = [{ x with items := ix ++ cx.flatten }, { y with items := iy ++ cy.flatten },
        { z with items := iz ++ cz.flatten }] := by
  have hop := WInv.open (l := l) (t := t) (by rw [hl, ht]; rfl)
  have harr := hop.arrs
  have hv : (Work.open (t.table l)).vls = [Vl.init { x with items := ix },
      Vl.init { y with items := iy }, Vl.init { z with items := iz }] := by
    simp [Work.open, Acc.table, hl, ht]
  have key : ∀ {a0 : Arr} {i : List Cell} {vss : List (List Val)} {css : List (List Cell)},
      List.Forall₂ (List.Forall₂ (Stored a0.kind a0.shape)) vss css →
      ∃ p, VInv a0 { a0 with items := i } ((Vl.init { a0 with items := i }).adds vss)
        (i ++ css.flatten) p ∧ LastSpan i.length css p := by
    intro a0 i vss css h
    obtain ⟨p, q1, q2⟩ := (VInv.init (a0 := a0) (items := i)).adds h
    refine ⟨p, q1, ?_⟩
    rcases q2 with ⟨rfl, rfl⟩ | ⟨_, q2⟩
    · exact .none
    · exact q2
  obtain ⟨px, vx, sx⟩ := key (i := ix) h1
  obtain ⟨py, vy, sy⟩ := key (i := iy) h2
  obtain ⟨pz, vz, sz⟩ := key (i := iz) h3
  have hA := AInv.cons vx (.cons vy (.cons vz .nil))
  have hrow := storeRow_append hr (storedRow_bounds hA)
  let tn : Acc := ⟨t.rows ++ [cells ++ limits [px, py, pz]],
    [ix ++ cx.flatten, iy ++ cy.flatten, iz ++ cz.flatten], [px, py, pz]⟩
  let W : Work := ⟨t.table l, [cells ++ limits [px, py, pz]],
    [(Vl.init { x with items := ix }).adds dir, (Vl.init { y with items := iy }).adds freq,
      (Vl.init { z with items := iz }).adds time]⟩
  have hw : WInv l W tn := by
    refine ⟨rfl, rfl, ?_⟩
    have e : (t.table l).arrs = [{ x with items := ix }, { y with items := iy },
        { z with items := iz }] := by simp [Acc.table, hl, ht]
    rw [e, hl]
    exact hA
  have hcols : (t.table l).cols = l.cols ++ limitCols [x, y, z] := by rw [← hl]; rfl
  have hfin : ∀ w' : Work, w'.tab = tn.table l → w'.tab.rows = t.rows ++ [cells ++ limits [px, py, pz]] ∧
      w'.tab.arrs = [{ x with items := ix ++ cx.flatten }, { y with items := iy ++ cy.flatten },
        { z with items := iz ++ cz.flatten }] := by
    intro w' e
    rw [e]
    exact ⟨rfl, by simp [Acc.table, hl, tn]⟩
  obtain ⟨w1, e1, e2, e3⟩ := hw.write
  have hadd : (Work.open (t.table l)).add B ⟨row, [dir, freq, time]⟩ =
      if [cells ++ limits [px, py, pz]].length = B then
        Work.write W
      else .ok W := by
    unfold Work.add
    rw [hv]
    have hc : (Work.open (t.table l)).tab.cols = l.cols ++ limitCols [x, y, z] := hcols
    simp only [addVls]
    rw [hc, hrow]
    rfl
  by_cases hB : [cells ++ limits [px, py, pz]].length = B
  · rw [if_pos hB] at hadd
    obtain ⟨w2, f1, f2, f3⟩ := e3.write
    obtain ⟨g1, g2⟩ := hfin w2 f2
    exact ⟨w1, w2, px, py, pz, hadd.trans e1, f1, sx, sy, sz, g1, g2⟩
  · rw [if_neg hB] at hadd
    obtain ⟨g1, g2⟩ := hfin w1 e2
    exact ⟨_, w1, px, py, pz, hadd, e1, sx, sy, sz, g1, g2⟩

end

/-- a record with type 1 twice: one pair each -/
example : HasInt (.rat 1) 1 ∧ HasInt (.rat 2) 2 ∧
    RefTypes (1 : Int).toNat (2 : Int).toNat [.rat 1, .rat 5, .rat 6, .rat 1, .rat 7, .rat 8]
      [(1, [vector [.rat 5, .rat 6]]), (1, [vector [.rat 7, .rat 8]])] ∧
    GroupsOf 1 [(1, [vector [.rat 5, .rat 6]]), (1, [vector [.rat 7, .rat 8]])]
      [[vector [.rat 5, .rat 6]], [vector [.rat 7, .rat 8]]] ∧
    GroupsOf 2 [(1, [vector [.rat 5, .rat 6]]), (1, [vector [.rat 7, .rat 8]])] [] :=
  have h1 : HasInt (.rat 1) 1 := ⟨1, rfl, by norm_num, by norm_num⟩
  have h2 : HasInt (.rat 2) 2 := ⟨2, rfl, by norm_num, by norm_num⟩
  ⟨h1, h2,
    .cons (d := [.rat 5, .rat 6]) h1 ⟨[[.rat 5, .rat 6]], by simp, rfl, rfl⟩ rfl
      (.cons (d := [.rat 7, .rat 8]) (l := []) h1 ⟨[[.rat 7, .rat 8]], by simp, rfl, rfl⟩ rfl .nil),
    .this (.this .nil), .other (by decide) (.other (by decide) .nil)⟩

/-- two groups of type 1: both are stored, the row refers to the second -/
example : ∃ (l : Layout) (t : Acc) (w w' : Work),
    (Work.open (t.table l)).add 100 ⟨numbers [.rat 1], [[[vector [.rat 1, .rat 2]],
      [vector [.rat 3, .rat 4]]], [], []]⟩ = .ok w ∧ w.write = .ok w' ∧
    w'.tab.rows.map List.length = [7] ∧
    (w'.tab.arrs.map fun a => a.items.length) = [2, 0, 0] := by
  refine ⟨⟨"WDRESREF", [colI "nfield"], [arrV "dir" 2, arrV "freq" 2, arrV "time" 2]⟩,
    ⟨[], [[], [], []], [(0, 0), (0, 0), (0, 0)]⟩, _, _, rfl, rfl, ?_, ?_⟩ <;> decide +kernel

end Verif.Parse
