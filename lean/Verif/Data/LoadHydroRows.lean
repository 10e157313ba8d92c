import Verif.Data.LoadRows
import Verif.Data.LoadHydroSpec
/-!
# Reading the tables of a converted file: hydrodynamic data
-/

namespace Verif.Data.Load
open Verif Verif.Data Verif.Parse Verif.Seq

/-! ### inversions -/

section
variable {e0 : Int → Option Int} {past : List LRec} {next : Option LRec} {r : LRec} {e : Entry}

theorem means_triples (h : Means e0 past next r e) (hn : r.name ∈ ["RBLODCMB", "RDRESCMB", "WBODCON"]) :
    ∃ a b c d vs, r.head = [a, b, c, d] ∧ e = ⟨numbers [a, b, c, d], [some vs]⟩ := by
  cases h
  case triples h1 h2 h3 h4 => exact ⟨_, _, _, _, _, rfl, rfl⟩
  other_types hn

theorem means_wglobdef (h : Means e0 past next r e) (hn : r.name ∈ ["WGLOBDEF"]) :
    ∃ a b c d x, r.head = [a, b, c, d] ∧ (HasInt d 0 ∧ x = .rat 1 ∨ ∃ n, HasInt d n ∧ n ≠ 0 ∧ r.vals = [x]) ∧
      e = ⟨numbers [a, b, c, d, x], []⟩ := by
  cases h
  case wglobdefInf h1 => exact ⟨_, _, _, _, _, rfl, .inl ⟨h1, rfl⟩, rfl⟩
  case wglobdef h1 h2 => exact ⟨_, _, _, _, _, rfl, .inr ⟨_, h1, h2, rfl⟩, rfl⟩
  other_types hn

theorem means_wbody (h : Means e0 past next r e) (hn : r.name ∈ ["WBODY"]) :
    ∃ more vals t, r.vals = more ++ vals ∧ more.length = 12 ∧ Verif.Parse.Matrix 4 4 vals t ∧
      e = ⟨numbers (r.head ++ more) ++ [t], []⟩ := by
  cases h
  case wbody h1 h2 => exact ⟨_, _, _, rfl, h1, h2, rfl⟩
  other_types hn

theorem means_w1matrix (h : Means e0 past next r e) (hn : r.name ∈ ["W1MATRIX"]) :
    ∃ a b vals t, r.vals = a :: b :: vals ∧ Verif.Parse.Matrix 6 6 vals t ∧
      e = ⟨numbers (r.head ++ [a, b]) ++ [t], []⟩ := by
  cases h
  case w1matrix h1 => exact ⟨_, _, _, _, rfl, h1, rfl⟩
  other_types hn

theorem means_six (h : Means e0 past next r e)
    (hn : r.name ∈ ["W1EXFORC", "W1MOTION", "W2EXFDIF", "W2EXFSUM"]) :
    ∃ a b c d n v, r.head = [a, b, c, d] ∧ HasInt d n ∧ Six n r.vals v ∧
      e = ⟨numbers [a, b, c, d] ++ [v], []⟩ := by
  cases h
  case six h1 h2 h3 => exact ⟨_, _, _, _, _, _, rfl, h2, h3, rfl⟩
  other_types hn

theorem means_w1sforce (h : Means e0 past next r e) (hn : r.name ∈ ["W1SFORCE"]) :
    ∃ a b c d x n vals v, r.head = [a, b, c, d] ∧ r.vals = x :: vals ∧ HasInt x n ∧ Six n vals v ∧
      e = ⟨numbers [a, b, c, d, x] ++ [v], []⟩ := by
  cases h
  case w1sforce h2 h3 => exact ⟨_, _, _, _, _, _, _, _, rfl, rfl, h2, h3, rfl⟩
  other_types hn

theorem means_w2hdrift (h : Means e0 past next r e) (hn : r.name ∈ ["W2HDRIFT"]) :
    ∃ a b c x y z, r.head = [a, b, c, x] ∧ r.vals = [y, z] ∧
      e = ⟨numbers [a, b, c] ++ [vector [x, y, z]], []⟩ := by
  cases h
  case w2hdrift => exact ⟨_, _, _, _, _, _, rfl, rfl, rfl⟩
  other_types hn

theorem means_w2mdrift (h : Means e0 past next r e) (hn : r.name ∈ ["W2MDRIFT"]) :
    ∃ a b c d, r.head = [a, b, c, d] ∧ r.vals.length = 5 ∧
      e = ⟨numbers [a, b, c] ++ [vector (d :: r.vals)], []⟩ := by
  cases h
  case w2mdrift h1 => exact ⟨_, _, _, _, rfl, h1, rfl⟩
  other_types hn

theorem means_wfkpoint (h : Means e0 past next r e) (hn : r.name ∈ ["WFKPOINT"]) :
    ∃ a b x y z, r.head = [a, b, x, y] ∧ r.vals = [z] ∧
      e = ⟨numbers [a, b] ++ [vector [x, y, z]], []⟩ := by
  cases h
  case wfkpoint => exact ⟨_, _, _, _, _, rfl, rfl, rfl⟩
  other_types hn

theorem means_wfluidkn (h : Means e0 past next r e) (hn : r.name ∈ ["WFLUIDKN"]) :
    ∃ a b c d n p v, r.head = [a, b, c, d] ∧ HasInt d n ∧
      (n ≠ 0 ∧ (∃ x y vals zs, r.vals = x :: y :: vals ∧ Pairs vals zs ∧ p = .sc (.cpx x y) ∧ v = .vec zs) ∨
       n = 0 ∧ ∃ x q, r.vals = x :: q ∧ p = .sc (.num x) ∧ v = vector q) ∧
      e = ⟨numbers [a, b, c, d] ++ [p, v], []⟩ := by
  cases h
  case wfluidknC h1 h2 h3 h4 =>
    exact ⟨_, _, _, _, _, _, _, rfl, h1, .inl ⟨h2, _, _, _, _, rfl, h3, rfl, rfl⟩, rfl⟩
  case wfluidknR h1 => exact ⟨_, _, _, _, _, _, _, rfl, h1, .inr ⟨rfl, _, _, rfl, rfl, rfl⟩, rfl⟩
  other_types hn

theorem means_wsection (h : Means e0 past next r e) (hn : r.name ∈ ["WSECTION"]) :
    ∃ a b c d x x1 y1 z1 x2 y2 z2 x3 y3 z3, r.head = [a, b, c, d] ∧
      r.vals = [x, x1, y1, z1, x2, y2, z2, x3, y3, z3] ∧
      e = ⟨numbers [a, b, c, d, x] ++ [vector [x1, y1, z1], vector [x2, y2, z2],
        vector [x3, y3, z3]], []⟩ := by
  cases h
  case wsection => exact ⟨_, _, _, _, _, _, _, _, _, _, _, _, _, _, rfl, rfl, rfl⟩
  other_types hn

theorem means_w1panpre (h : Means e0 past next r e) (hn : r.name ∈ ["W1PANPRE"]) :
    ∃ a b n p u v, HasInt b n ∧
      (n ≠ 0 ∧ (∃ x y, r.vals = [a, b, x, y, u, v] ∧ p = .sc (.cpx x y)) ∨
       n = 0 ∧ ∃ x, r.vals = [a, b, x, u, v] ∧ p = .sc (.cpx x (.rat 0))) ∧
      e = ⟨numbers (r.head ++ [a, b]) ++ [p] ++ numbers [u, v], []⟩ := by
  cases h
  case w1panpreC h1 h2 => exact ⟨_, _, _, _, _, _, h1, .inl ⟨h2, _, _, rfl, rfl⟩, rfl⟩
  case w1panpreR h1 => exact ⟨_, _, _, _, _, _, h1, .inr ⟨rfl, _, rfl, rfl⟩, rfl⟩
  other_types hn

end

/-! ### cells -/

section
variable {l : Layout} {vals : List Val} {lim row : List Cell} {K V : Type}

theorem stored_vec {num : PyF → K} {ss : List Sc} {cs : List SCell}
    (h : List.Forall₂ (StoredSc .flt) ss cs) :
    ∃ q : List PyF, ss = q.map (fun x => Sc.num x) ∧ cs.mapM (realSc num) = .ok (q.map (at32 num)) := by
  induction h with
  | nil => exact ⟨[], rfl, rfl⟩
  | cons hx _ ih =>
    obtain ⟨q, q1, q2⟩ := ih
    cases hx with
    | @flt x x' hx =>
      exact ⟨x :: q, by rw [q1]; rfl, by rw [List.mapM_cons, q2, hx.eq]; rfl⟩

theorem nums_inj {p q : List PyF} (h : p.map (fun x => Sc.num x) = q.map (fun x => Sc.num x)) :
    p = q := List.map_injective_iff.mpr (fun x y hxy => by cases hxy; rfl) h

theorem vec_total {num : PyF → K} (h : IsRow l vals lim row) {n : String} {a : Nat}
    (i : Nat) (hc : l.cols[i]? = some ⟨n, .flt, .vec a⟩)
    (hix : ((l.cols ++ limitCols l.arrs).map (·.name)).idxOf n = i) :
    ∃ q : List PyF, reals num (cell (l.cols ++ limitCols l.arrs) row) n = .ok (q.map (at32 num)) ∧
      ∀ q', vals[i]? = some (vector q') → q' = q := by
  have hlen : vals.length = l.cols.length := by obtain ⟨_, hs, _⟩ := h; exact hs.2.1
  have hlt := (List.getElem?_eq_some_iff.mp hc).1
  obtain ⟨y, h1, h2⟩ := cell_stored h i hc hix (List.getElem?_eq_getElem (hlen ▸ hlt))
  unfold reals
  rw [h1, List.getElem?_eq_getElem (hlen ▸ hlt)]
  generalize vals[i] = v at h2
  cases h2 with
  | vec g =>
    obtain ⟨q, rfl, q2⟩ := stored_vec (num := num) g
    refine ⟨q, q2, fun q' hq' => ?_⟩
    simp only [vector, Option.some.injEq, Val.vec.injEq] at hq'
    exact (nums_inj hq').symm

theorem cvec_total {cplx : PyF → PyF → V} (h : IsRow l vals lim row) {n : String} {a : Nat}
    (i : Nat) (hc : l.cols[i]? = some ⟨n, .cpx, .vec a⟩)
    (hix : ((l.cols ++ limitCols l.arrs).map (·.name)).idxOf n = i) :
    ∃ zs : List V, (cell (l.cols ++ limitCols l.arrs) row n >>= asCplxs cplx) = .ok zs ∧
      (∀ q, vals[i]? = some (vector q) → q.map (fun x => cplx x.single (.rat 0)) = zs) ∧
      ∀ q ss, vals[i]? = some (.vec ss) → Pairs q ss → Parts cplx q zs := by
  have hlen : vals.length = l.cols.length := by obtain ⟨_, hs, _⟩ := h; exact hs.2.1
  have hlt := (List.getElem?_eq_some_iff.mp hc).1
  obtain ⟨y, h1, h2⟩ := cell_stored h i hc hix (List.getElem?_eq_getElem (hlen ▸ hlt))
  rw [h1, List.getElem?_eq_getElem (hlen ▸ hlt)]
  generalize vals[i] = v at h2
  cases h2 with
  | @vec ss cs g =>
    have : ∃ zs : List V, cs.mapM (cplxSc cplx) = .ok zs ∧
        (∀ q : List PyF, ss = q.map (fun x => Sc.num x) → q.map (fun x => cplx x.single (.rat 0)) = zs) ∧
        ∀ q, Pairs q ss → Parts cplx q zs := by
      clear h1 hc
      induction g with
      | nil =>
        refine ⟨[], rfl, fun q hq => ?_, fun q hq => ?_⟩
        · have : q = [] := by simpa using hq.symm
          rw [this]; rfl
        · cases hq; exact .nil
      | cons hx _ ih =>
        obtain ⟨zs, i1, i2, i3⟩ := ih
        cases hx with
        | @cpxReal x x' hx =>
          refine ⟨cplx x.single (.rat 0) :: zs, by rw [List.mapM_cons, i1, hx.eq]; rfl, fun q hq => ?_,
            fun q hq => by cases hq⟩
          cases q with
          | nil => cases hq
          | cons z q =>
            rw [List.map_cons] at hq
            injection hq with e1 e2
            injection e1 with e1
            subst e1
            rw [List.map_cons, i2 q e2]
        | @cpx x x' y y' hx hy =>
          refine ⟨cplx x.single y.single :: zs, by rw [List.mapM_cons, i1, hx.eq, hy.eq]; rfl,
            fun q hq => ?_, fun q hq => ?_⟩
          · cases q with
            | nil => cases hq
            | cons z q => rw [List.map_cons] at hq; injection hq with e1; cases e1
          · cases hq with
            | cons _ _ hq => exact .cons _ _ (i3 _ hq)
    obtain ⟨zs, i1, i2, i3⟩ := this
    refine ⟨zs, i1, fun q hq => i2 q ?_, fun q ss' h1' h2' => i3 q ?_⟩
    · simpa [vector] using hq
    · simp only [Option.some.injEq, Val.vec.injEq] at h1'
      rw [h1']; exact h2'

theorem csc_total {cplx : PyF → PyF → V} (h : IsRow l vals lim row) {n : String}
    (i : Nat) (hc : l.cols[i]? = some ⟨n, .cpx, .sc⟩)
    (hix : ((l.cols ++ limitCols l.arrs).map (·.name)).idxOf n = i) :
    ∃ z : V, (cell (l.cols ++ limitCols l.arrs) row n >>= asCplx cplx) = .ok z ∧
      (∀ x, vals[i]? = some (.sc (.num x)) → cplx x.single (.rat 0) = z) ∧
      ∀ x y, vals[i]? = some (.sc (.cpx x y)) → cplx x.single y.single = z := by
  have hlen : vals.length = l.cols.length := by obtain ⟨_, hs, _⟩ := h; exact hs.2.1
  have hlt := (List.getElem?_eq_some_iff.mp hc).1
  obtain ⟨y, h1, h2⟩ := cell_stored h i hc hix (List.getElem?_eq_getElem (hlen ▸ hlt))
  rw [h1, List.getElem?_eq_getElem (hlen ▸ hlt)]
  generalize vals[i] = v at h2
  cases h2 with
  | sc h2 => cases h2 with
    | cpxReal hx => exact ⟨_, rfl, fun y hy => (by cases hy; rw [hx.eq]; rfl), fun y z hy => by cases hy⟩
    | cpx hx hy =>
      exact ⟨_, rfl, fun y hy => (by cases hy), fun y z hz => by cases hz; rw [hx.eq, hy.eq]; rfl⟩

theorem Parts.unique {cplx : PyF → PyF → V} {q : List PyF} {a b : List V} (h1 : Parts cplx q a)
    (h2 : Parts cplx q b) : a = b := by
  induction h1 generalizing b with
  | nil => cases h2; rfl
  | cons x y _ ih => cases h2 with
    | cons _ _ h2 => rw [ih h2]

/-- the values read are those given -/
theorem values_unique {cplx : PyF → PyF → V} {n m : Int} {d : PyF} {q : List PyF} {v : Val}
    {zs ys : List V} (h1 : HasInt d n) (h2 : Six n q v) (h3 : HasInt d m) (h4 : Values cplx m q ys)
    (c1 : ∀ q, v = vector q → q.map (fun x => cplx x.single (.rat 0)) = zs)
    (c2 : ∀ q ss, v = .vec ss → Pairs q ss → Parts cplx q zs) : zs = ys := by
  obtain rfl := h1.unique h3
  cases h2 with
  | complex g1 g2 g3 =>
    cases h4 with
    | complex _ g4 => exact (c2 _ _ rfl g2).unique g4
    | real g4 _ => exact absurd g4 g1
  | real g1 g2 =>
    cases h4 with
    | complex g4 _ => exact absurd g1 g4
    | real _ g4 => rw [← c1 _ rfl, g4]

/-- the matrix read is the one given -/
theorem matrix_unique {num : PyF → K} {n m : Nat} {q : List PyF} {v : Val} {rows : List (List PyF)}
    {t : List (List K)} (h1 : Verif.Parse.Matrix n m q v) (h2 : GivesMatrix num n m q t)
    (h3 : ∀ m' : List (List PyF), v = .mat (m'.map fun r => r.map fun x => .num x) → m' = rows) :
    rows.map (·.map (at32 num)) = t := by
  obtain ⟨rs, g1, g2, g3, g4⟩ := h1
  obtain ⟨k1, k2, k3⟩ := h2
  obtain rfl := h3 rs g4
  refine flatten_inj (m := m) (by simp [g1, k1]) ?_ k2 ?_
  · intro r hr
    obtain ⟨r', hr', rfl⟩ := List.mem_map.mp hr
    simp [g2 r' hr']
  · rw [k3, ← g3, List.map_flatten]

end

/-! ### rows -/

section
variable {sk : LRec → Bool} {e0 : Int → Option Int}
  {f : List LRec} {outs : List Added} {names : List String} {pl : Place} {s : Int} {h0 : H5}
  {lev dt : String} {ix : Option (Option Int)} {h : H5} {K V : Type} {num : PyF → K}
  {cplx : PyF → PyF → V}

/-- loading a table gives the rows that the records describe -/
def Loads (f : List LRec) (name : String) {β : Type} (R : LRec → β → Prop)
    (x : Except Err (Option (List β))) : Prop :=
  ∃ o, x = .ok o ∧ (recordsOf name f = [] → o = none) ∧
    ∀ bs, bs ≠ [] → List.Forall₂ R (recordsOf name f) bs → o = some bs

theorem load_wglobdef (j : Job none sk e0 f outs names pl s h0 lev dt ix)
    (hc : Converted outs names pl s h0 lev dt ix h) :
    Loads f "WGLOBDEF" (IsGlob num) (table h (pl.path s) "WGLOBDEF" (globRow num)) := by
  refine load_table j hc (l := ⟨"WGLOBDEF", [colI "nfield", colF "g", colF "ro", colI "idepth",
    colF "depth"], []⟩) (by decide +kernel) _ ?_
  intro r past next e lim row hn hm hr
  obtain ⟨p, q, u, v, x, hh, hx, he⟩ := means_wglobdef hm (by rw [hn]; decide)
  obtain ⟨a, a1, a2⟩ := real_total (num := num) hr (n := "g") 1 rfl (by decide +kernel)
  obtain ⟨b, b1, b2⟩ := real_total (num := num) hr (n := "ro") 2 rfl (by decide +kernel)
  obtain ⟨c, c1, c2⟩ := real_total (num := num) hr (n := "depth") 4 rfl (by decide +kernel)
  refine ⟨⟨at32 num a, at32 num b, at32 num c⟩, by unfold globRow; rw [a1, b1, c1]; rfl, ?_⟩
  rw [he] at a2 b2 c2
  rintro ⟨_, _, _⟩ ⟨p', q', u', v', h1, h2, h3, h4⟩
  rw [hh] at h1
  cases h1
  rw [← a2 _ rfl, ← b2 _ rfl, ← c2 _ rfl, h2, h3]
  congr 1
  rcases hx with ⟨k1, rfl⟩ | ⟨n, k1, k2, k3⟩
  · rcases h4 with ⟨_, k4⟩ | ⟨m, y, k4, k5, _⟩
    · exact k4
    · exact absurd (k4.unique k1) k5
  · rcases h4 with ⟨k4, _⟩ | ⟨m, y, k4, k5, k6, k7⟩
    · exact absurd (k1.unique k4) k2
    · rw [k3] at k6; cases k6; exact k7

theorem load_wbodcon (j : Job none sk e0 f outs names pl s h0 lev dt ix)
    (hc : Converted outs names pl s h0 lev dt ix h) :
    Loads f "WBODCON" IsBodCon (table h (pl.path s) "WBODCON" bodconRow) := by
  refine load_table j hc (l := ⟨"WBODCON", [colI "nfield", colI "ibcond", colI "ibody",
    colI "numcon"], [arrV "refcond" 3]⟩) (by decide +kernel) _ ?_
  intro r past next e lim row hn hm hr
  obtain ⟨p, q, u, v, vs, hh, he⟩ := means_triples hm (by rw [hn]; decide)
  obtain ⟨a, a1, a2⟩ := int_total hr (n := "ibcond") 1 rfl (by decide +kernel)
  obtain ⟨b, b1, b2⟩ := int_total hr (n := "ibody") 2 rfl (by decide +kernel)
  refine ⟨⟨a, b⟩, by unfold bodconRow; rw [a1, b1]; rfl, ?_⟩
  rw [he] at a2 b2
  rintro ⟨_, _⟩ ⟨p', q', u', v', h1, h2, h3⟩
  rw [hh] at h1
  cases h1
  rw [(a2 _ rfl).unique h2, (b2 _ rfl).unique h3]

theorem load_wsection (j : Job none sk e0 f outs names pl s h0 lev dt ix)
    (hc : Converted outs names pl s h0 lev dt ix h) :
    Loads f "WSECTION" (IsSection num) (table h (pl.path s) "WSECTION" (sectionRow num)) := by
  refine load_table j hc (l := ⟨"WSECTION", [colI "nfield", colI "ibody", colI "isect",
    colI "isecty", colI "secusr", ⟨"p1", .flt, .vec 3⟩, ⟨"p2", .flt, .vec 3⟩, ⟨"p3", .flt, .vec 3⟩],
    []⟩) (by decide +kernel) _ ?_
  intro r past next e lim row hn hm hr
  obtain ⟨p, q, u, v, w, x1, y1, z1, x2, y2, z2, x3, y3, z3, hh, hvl, he⟩ :=
    means_wsection hm (by rw [hn]; decide)
  obtain ⟨a, a1, a2⟩ := int_total hr (n := "ibody") 1 rfl (by decide +kernel)
  obtain ⟨b, b1, b2⟩ := int_total hr (n := "isect") 2 rfl (by decide +kernel)
  obtain ⟨c, c1, c2⟩ := int_total hr (n := "isecty") 3 rfl (by decide +kernel)
  obtain ⟨d, d1, d2⟩ := int_total hr (n := "secusr") 4 rfl (by decide +kernel)
  obtain ⟨q1, e1, e2⟩ := vec_total (num := num) hr (n := "p1") (a := 3) 5 rfl (by decide +kernel)
  obtain ⟨q2, f1, f2⟩ := vec_total (num := num) hr (n := "p2") (a := 3) 6 rfl (by decide +kernel)
  obtain ⟨q3, g1, g2⟩ := vec_total (num := num) hr (n := "p3") (a := 3) 7 rfl (by decide +kernel)
  refine ⟨⟨a, b, c, d, q1.map (at32 num), q2.map (at32 num), q3.map (at32 num)⟩,
    by unfold sectionRow; rw [a1, b1, c1, d1, e1, f1, g1]; rfl, ?_⟩
  rw [he] at a2 b2 c2 d2 e2 f2 g2
  rintro ⟨_, _, _, _, _, _, _⟩
    ⟨p', q', u', v', w', x1', y1', z1', x2', y2', z2', x3', y3', z3', h1, h2, h3, h4, h5, h6, h7, h8, h9⟩
  rw [hh] at h1
  cases h1
  rw [hvl] at h2
  cases h2
  dsimp only at h7 h8 h9
  rw [(a2 _ rfl).unique h3, (b2 _ rfl).unique h4, (c2 _ rfl).unique h5, (d2 _ rfl).unique h6,
    ← e2 _ rfl, ← f2 _ rfl, ← g2 _ rfl, h7, h8, h9]
  rfl

theorem load_wfkpoint (j : Job none sk e0 f outs names pl s h0 lev dt ix)
    (hc : Converted outs names pl s h0 lev dt ix h) :
    Loads f "WFKPOINT" (IsPoint num) (table h (pl.path s) "WFKPOINT" (pointRow num)) := by
  refine load_table j hc (l := ⟨"WFKPOINT", [colI "nfield", colI "ifkpnt",
    ⟨"fkpnt", .flt, .vec 3⟩], []⟩) (by decide +kernel) _ ?_
  intro r past next e lim row hn hm hr
  obtain ⟨p, q, u, v, w, hh, hvl, he⟩ := means_wfkpoint hm (by rw [hn]; decide)
  obtain ⟨a, a1, a2⟩ := int_total hr (n := "ifkpnt") 1 rfl (by decide +kernel)
  obtain ⟨q1, e1, e2⟩ := vec_total (num := num) hr (n := "fkpnt") (a := 3) 2 rfl (by decide +kernel)
  refine ⟨⟨a, q1.map (at32 num)⟩, by unfold pointRow; rw [a1, e1]; rfl, ?_⟩
  rw [he] at a2 e2
  rintro ⟨_, _⟩ ⟨p', q', u', v', w', h1, h2, h3, h4⟩
  rw [hh] at h1
  cases h1
  rw [hvl] at h2
  cases h2
  dsimp only at h4
  rw [(a2 _ rfl).unique h3, ← e2 _ rfl, h4]
  rfl

theorem load_six (j : Job none sk e0 f outs names pl s h0 lev dt ix)
    (hc : Converted outs names pl s h0 lev dt ix h) {name : String}
    (hname : name ∈ ["W1EXFORC", "W1MOTION"]) :
    Loads f name (IsSix cplx) (table h (pl.path s) name (cplxBodyRow cplx)) := by
  have hl : sixLayout name ∈ layouts := by
    have : ∀ n ∈ ["W1EXFORC", "W1MOTION"], sixLayout n ∈ layouts := by decide +kernel
    exact this _ hname
  refine load_table j hc hl _ ?_
  intro r past next e lim row hn hm hr
  obtain ⟨p, q, u, v, n, x, hh, hi, hx, he⟩ := means_six hm (by
    rw [hn]
    have : ∀ n ∈ ["W1EXFORC", "W1MOTION"], n ∈ ["W1EXFORC", "W1MOTION", "W2EXFDIF", "W2EXFSUM"] := by
      decide
    exact this _ hname)
  obtain ⟨a, a1, a2⟩ := int_total hr (n := "ibcond") 1 rfl (by rfl)
  obtain ⟨zs, e1, e2, e3⟩ := cvec_total (cplx := cplx) hr (n := "data") (a := 6) 4 rfl (by rfl)
  refine ⟨⟨a, zs⟩, ?_, ?_⟩
  · obtain ⟨y, y1, y2⟩ := bind_ok e1
    unfold cplxBodyRow
    rw [a1, y1]
    change (asCplxs cplx y >>= fun t => _) = _
    rw [y2]
    rfl
  · rw [he] at a2 e2 e3
    rintro ⟨_, _⟩ ⟨p', q', u', v', n', h1, h2, h3, h4, h5⟩
    rw [hh] at h1
    cases h1
    rw [(a2 _ rfl).unique h2, values_unique hi hx h3 h4 (fun q hq => e2 q (by rw [hq]; rfl))
      (fun q ss hq => e3 q ss (by rw [hq]; rfl))]

theorem load_w1sforce (j : Job none sk e0 f outs names pl s h0 lev dt ix)
    (hc : Converted outs names pl s h0 lev dt ix h) :
    Loads f "W1SFORCE" (IsSectForce cplx) (table h (pl.path s) "W1SFORCE" (cplxBodyRow cplx)) := by
  refine load_table j hc (l := ⟨"W1SFORCE", [colI "nfield", colI "ibcond", colI "isect",
    colI "iwres", colI "icompl", ⟨"data", .cpx, .vec 6⟩], []⟩) (by decide +kernel) _ ?_
  intro r past next e lim row hn hm hr
  obtain ⟨p, q, u, v, w, n, vals, x, hh, hvl, hi, hx, he⟩ := means_w1sforce hm (by rw [hn]; decide)
  obtain ⟨a, a1, a2⟩ := int_total hr (n := "ibcond") 1 rfl (by decide +kernel)
  obtain ⟨zs, e1, e2, e3⟩ := cvec_total (cplx := cplx) hr (n := "data") (a := 6) 5 rfl
    (by decide +kernel)
  refine ⟨⟨a, zs⟩, ?_, ?_⟩
  · obtain ⟨y, y1, y2⟩ := bind_ok e1
    unfold cplxBodyRow
    rw [a1, y1]
    change (asCplxs cplx y >>= fun t => _) = _
    rw [y2]
    rfl
  · rw [he] at a2 e2 e3
    rintro ⟨_, _⟩ ⟨p', q', u', v', w', vals', n', h1, h2, h3, h4, h5, h6⟩
    rw [hh] at h1
    cases h1
    rw [hvl] at h2
    cases h2
    rw [(a2 _ rfl).unique h3, values_unique hi hx h4 h5 (fun q hq => e2 q (by rw [hq]; rfl))
      (fun q ss hq => e3 q ss (by rw [hq]; rfl))]

theorem load_wfluidkn (j : Job none sk e0 f outs names pl s h0 lev dt ix)
    (hc : Converted outs names pl s h0 lev dt ix h) :
    Loads f "WFLUIDKN" (IsFluid cplx) (table h (pl.path s) "WFLUIDKN" (fluidRow cplx)) := by
  refine load_table j hc (l := ⟨"WFLUIDKN", [colI "nfield", colI "iwres", colI "ifkpnt",
    colI "icompl", ⟨"p", .cpx, .sc⟩, ⟨"v", .cpx, .vec 3⟩], []⟩) (by decide +kernel) _ ?_
  intro r past next e lim row hn hm hr
  obtain ⟨p, q, u, v, n, x, y, hh, hi, hx, he⟩ := means_wfluidkn hm (by rw [hn]; decide)
  obtain ⟨z, a1, a2, a3⟩ := csc_total (cplx := cplx) hr (n := "p") 4 rfl (by decide +kernel)
  obtain ⟨zs, e1, e2, e3⟩ := cvec_total (cplx := cplx) hr (n := "v") (a := 3) 5 rfl
    (by decide +kernel)
  refine ⟨⟨z, zs⟩, ?_, ?_⟩
  · obtain ⟨y, y1, y2⟩ := bind_ok e1
    obtain ⟨x, x1, x2⟩ := bind_ok a1
    unfold fluidRow
    rw [x1, y1]
    change (asCplx cplx x >>= fun t => _) = _
    rw [x2]
    change (asCplxs cplx y >>= fun t => _) = _
    rw [y2]
    rfl
  · rw [he] at a2 a3 e2 e3
    rintro ⟨p1, v1⟩ ⟨p', q', u', v', n', h1, h2, h3, h4⟩
    rw [hh] at h1
    cases h1
    obtain rfl := hi.unique h2
    have key : z :: zs = p1 :: v1 := by
      rcases hx with ⟨hn0, x', y', vals, zs', k1, k2, k3, k4⟩ | ⟨hn0, x', q'', k1, k3, k4⟩
      · cases h3 with
        | complex _ g =>
          rw [k1] at g
          have := Parts.cons x' y' (e3 _ _ (by rw [k4]; rfl) k2)
          rw [a3 x' y' (by rw [k3]; rfl)] at this
          exact this.unique g
        | real g _ => exact absurd g hn0
      · cases h3 with
        | complex g _ => exact absurd hn0 g
        | real _ g =>
          rw [k1, List.map_cons, a2 x' (by rw [k3]; rfl), e2 q'' (by rw [k4]; rfl)] at g
          exact g
    cases key
    rfl

theorem load_w1matrix (j : Job none sk e0 f outs names pl s h0 lev dt ix)
    (hc : Converted outs names pl s h0 lev dt ix h) :
    Loads f "W1MATRIX" (IsMat num) (table h (pl.path s) "W1MATRIX" (matrixRow num)) := by
  refine load_table j hc (l := ⟨"W1MATRIX", [colI "nfield", colI "imatrx", colI "ibconi",
    colI "ibconj", colI "iwres", colI "imtyp", ⟨"hmat", .flt, .mat 6 6⟩], []⟩) (by decide +kernel) _ ?_
  intro r past next e lim row hn hm hr
  obtain ⟨x, y, vals, t, hvl, ht, he⟩ := means_w1matrix hm (by rw [hn]; decide)
  obtain ⟨a, a1, a2⟩ := int_total hr (n := "ibconi") 2 rfl (by decide +kernel)
  obtain ⟨b, b1, b2⟩ := int_total hr (n := "ibconj") 3 rfl (by decide +kernel)
  obtain ⟨c, c1, c2⟩ := int_total hr (n := "imtyp") 5 rfl (by decide +kernel)
  obtain ⟨m, m1, m2, m3, m4⟩ := mat_total (num := num) hr (n := "hmat") (a := 6) (b := 6) 6 rfl
    (by decide +kernel)
  refine ⟨⟨a, b, c, m.map (·.map (at32 num))⟩, ?_, ?_⟩
  · obtain ⟨y, y1, y2⟩ := bind_ok m3
    unfold matrixRow
    rw [a1, b1, c1, y1]
    change (asMat num y >>= fun t => _) = _
    rw [y2]
    rfl
  · rintro ⟨_, _, _, t'⟩ ⟨p', q', u', v', x', y', vals', h1, h2, h3, h4, h5, h6⟩
    rw [hvl] at h2
    cases h2
    rw [he, h1] at a2 b2 c2 m4
    rw [(a2 _ rfl).unique h3, (b2 _ rfl).unique h4, (c2 _ rfl).unique h5,
      matrix_unique ht h6 (fun m' hm' => m4 m' (by rw [hm']; rfl))]

theorem load_w2mdrift (j : Job none sk e0 f outs names pl s h0 lev dt ix)
    (hc : Converted outs names pl s h0 lev dt ix h) :
    Loads f "W2MDRIFT" (IsDrift num 6) (table h (pl.path s) "W2MDRIFT" (driftRow num "smfor")) := by
  refine load_table j hc (l := ⟨"W2MDRIFT", [colI "nfield", colI "ibcond", colI "iwres",
    ⟨"smfor", .flt, .vec 6⟩], []⟩) (by decide +kernel) _ ?_
  intro r past next e lim row hn hm hr
  obtain ⟨p, q, u, v, hh, hvl, he⟩ := means_w2mdrift hm (by rw [hn]; decide)
  obtain ⟨a, a1, a2⟩ := int_total hr (n := "ibcond") 1 rfl (by decide +kernel)
  obtain ⟨q1, e1, e2⟩ := vec_total (num := num) hr (n := "smfor") (a := 6) 3 rfl (by decide +kernel)
  refine ⟨⟨a, q1.map (at32 num)⟩, by unfold driftRow; rw [a1, e1]; rfl, ?_⟩
  rw [he] at a2 e2
  rintro ⟨_, _⟩ ⟨p', q', u', v', h1, h2, h3, h4⟩
  rw [hh] at h1
  cases h1
  dsimp only at h3
  rw [(a2 _ rfl).unique h2, ← e2 _ rfl, h3]

theorem load_w2hdrift (j : Job none sk e0 f outs names pl s h0 lev dt ix)
    (hc : Converted outs names pl s h0 lev dt ix h) :
    Loads f "W2HDRIFT" (IsDrift num 3) (table h (pl.path s) "W2HDRIFT" (driftRow num "shfor")) := by
  refine load_table j hc (l := ⟨"W2HDRIFT", [colI "nfield", colI "ibcond", colI "iwres",
    ⟨"shfor", .flt, .vec 3⟩], []⟩) (by decide +kernel) _ ?_
  intro r past next e lim row hn hm hr
  obtain ⟨p, q, u, x, y, z, hh, hvl, he⟩ := means_w2hdrift hm (by rw [hn]; decide)
  obtain ⟨a, a1, a2⟩ := int_total hr (n := "ibcond") 1 rfl (by decide +kernel)
  obtain ⟨q1, e1, e2⟩ := vec_total (num := num) hr (n := "shfor") (a := 3) 3 rfl (by decide +kernel)
  refine ⟨⟨a, q1.map (at32 num)⟩, by unfold driftRow; rw [a1, e1]; rfl, ?_⟩
  rw [he] at a2 e2
  rintro ⟨_, _⟩ ⟨p', q', u', v', h1, h2, h3, h4⟩
  rw [hh] at h1
  cases h1
  rw [hvl] at h3
  dsimp only at h3
  rw [(a2 _ rfl).unique h2, ← e2 _ rfl, h3]

theorem load_w1panpre (j : Job none sk e0 f outs names pl s h0 lev dt ix)
    (hc : Converted outs names pl s h0 lev dt ix h) :
    Loads f "W1PANPRE" (IsPanel cplx) (table h (pl.path s) "W1PANPRE" (panelRow cplx)) := by
  refine load_table j hc (l := ⟨"W1PANPRE", [colI "nfield", colI "ibcond", colI "iwres",
    colI "ippan", colI "isymm1", colI "icompl", ⟨"p", .cpx, .sc⟩, colI "ipan", colI "isymm2"], []⟩)
    (by decide +kernel) _ ?_
  intro r past next e lim row hn hm hr
  obtain ⟨p, q, n, x, y, z, hi, hx, he⟩ := means_w1panpre hm (by rw [hn]; decide)
  obtain ⟨a, a1, a2⟩ := int_total hr (n := "ibcond") 1 rfl (by decide +kernel)
  obtain ⟨b, b1, b2⟩ := int_total hr (n := "isymm1") 4 rfl (by decide +kernel)
  obtain ⟨w, w1, w2, w3⟩ := csc_total (cplx := cplx) hr (n := "p") 6 rfl (by decide +kernel)
  obtain ⟨c, c1, c2⟩ := int_total hr (n := "ipan") 7 rfl (by decide +kernel)
  refine ⟨⟨a, b, w, c⟩, ?_, ?_⟩
  · obtain ⟨x, x1, x2⟩ := bind_ok w1
    unfold panelRow
    rw [a1, b1, x1]
    change (asCplx cplx x >>= fun t => _) = _
    rw [x2, c1]
    rfl
  · rintro ⟨_, _, _, _⟩ ⟨p', q', u', v', x', y', vals', c', d', n', h1, h2, h3, h4, h5, h6, h7⟩
    rw [he, h1] at a2 b2 w2 w3 c2
    have key : ∃ X, p = x' ∧ q = y' ∧ X = vals' ∧ y = c' ∧ z = d' ∧
        (n ≠ 0 ∧ (∃ s t, X = [s, t] ∧ x = .sc (.cpx s t)) ∨
          n = 0 ∧ ∃ s, X = [s] ∧ x = .sc (.cpx s (.rat 0))) := by
      rcases hx with ⟨hn0, s, t, k1, k2⟩ | ⟨hn0, s, k1, k2⟩
      · rw [k1] at h2
        injection h2 with e1 h2
        injection h2 with e2 h2
        obtain ⟨e3, e4⟩ := List.append_inj' (s₁ := [s, t]) (t₁ := [y, z]) h2 rfl
        cases e4
        exact ⟨_, e1, e2, e3, rfl, rfl, .inl ⟨hn0, _, _, rfl, k2⟩⟩
      · rw [k1] at h2
        injection h2 with e1 h2
        injection h2 with e2 h2
        obtain ⟨e3, e4⟩ := List.append_inj' (s₁ := [s]) (t₁ := [y, z]) h2 rfl
        cases e4
        exact ⟨_, e1, e2, e3, rfl, rfl, .inr ⟨hn0, _, rfl, k2⟩⟩
    obtain ⟨X, rfl, rfl, rfl, rfl, rfl, hX⟩ := key
    obtain rfl := hi.unique h5
    rw [(a2 _ rfl).unique h3, (b2 _ rfl).unique h4, (c2 _ rfl).unique h7]
    congr 1
    rcases hX with ⟨hn0, s, t, rfl, rfl⟩ | ⟨hn0, s, rfl, rfl⟩
    · cases h6 with
      | complex _ g =>
        rw [← w3 s t rfl]
        cases g with
        | cons _ _ g => rfl
      | real g _ => exact absurd g hn0
    · cases h6 with
      | complex g _ => exact absurd hn0 g
      | real _ g =>
        rw [← w3 s _ rfl, show (PyF.rat 0).single = .rat 0 by decide +kernel]
        simpa using g

theorem load_wbody (j : Job none sk e0 f outs names pl s h0 lev dt ix)
    (hc : Converted outs names pl s h0 lev dt ix h) :
    Loads f "WBODY" (IsBody num) (table h (pl.path s) "WBODY" (bodyPropRow num)) := by
  refine load_table j hc (l := ⟨"WBODY", [colI "nfield", colI "ibcond", colF "clenb",
    colF "bmass", colF "wsarea", colF "wparea", colF "vol", colF "xcg", colF "ycg", colF "zcg",
    colF "xcb", colF "ycb", colF "zcb", colF "xrb", colF "yrb", colF "zrb", ⟨"t", .flt, .mat 4 4⟩],
    []⟩) (by decide +kernel) _ ?_
  intro r past next e lim row hn hm hr
  obtain ⟨more, vals, t, hvl, hml, ht, he⟩ := means_wbody hm (by rw [hn]; decide)
  obtain ⟨a, a1, a2⟩ := int_total hr (n := "nfield") 0 rfl (by decide +kernel)
  obtain ⟨b, b1, b2⟩ := int_total hr (n := "ibcond") 1 rfl (by decide +kernel)
  obtain ⟨m, m1, m2, m3, m4⟩ := mat_total (num := num) hr (n := "t") (a := 4) (b := 4) 16 rfl
    (by decide +kernel)
  obtain ⟨x1, p1, q1⟩ := real_total (num := num) hr (n := "clenb") 2 rfl (by decide +kernel)
  obtain ⟨x2, p2, q2⟩ := real_total (num := num) hr (n := "bmass") 3 rfl (by decide +kernel)
  obtain ⟨x3, p3, q3⟩ := real_total (num := num) hr (n := "wsarea") 4 rfl (by decide +kernel)
  obtain ⟨x4, p4, q4⟩ := real_total (num := num) hr (n := "wparea") 5 rfl (by decide +kernel)
  obtain ⟨x5, p5, q5⟩ := real_total (num := num) hr (n := "vol") 6 rfl (by decide +kernel)
  obtain ⟨x6, p6, q6⟩ := real_total (num := num) hr (n := "xcg") 7 rfl (by decide +kernel)
  obtain ⟨x7, p7, q7⟩ := real_total (num := num) hr (n := "ycg") 8 rfl (by decide +kernel)
  obtain ⟨x8, p8, q8⟩ := real_total (num := num) hr (n := "zcg") 9 rfl (by decide +kernel)
  obtain ⟨x9, p9, q9⟩ := real_total (num := num) hr (n := "xcb") 10 rfl (by decide +kernel)
  obtain ⟨x10, p10, q10⟩ := real_total (num := num) hr (n := "ycb") 11 rfl (by decide +kernel)
  obtain ⟨x11, p11, q11⟩ := real_total (num := num) hr (n := "zcb") 12 rfl (by decide +kernel)
  obtain ⟨x12, p12, q12⟩ := real_total (num := num) hr (n := "xrb") 13 rfl (by decide +kernel)
  obtain ⟨x13, p13, q13⟩ := real_total (num := num) hr (n := "yrb") 14 rfl (by decide +kernel)
  obtain ⟨x14, p14, q14⟩ := real_total (num := num) hr (n := "zrb") 15 rfl (by decide +kernel)
  obtain ⟨y, y1, y2⟩ := bind_ok m3
  refine ⟨⟨a, b, [("clenb", .real [[at32 num x1]]), ("bmass", .real [[at32 num x2]]),
    ("wsarea", .real [[at32 num x3]]), ("wparea", .real [[at32 num x4]]), ("vol", .real [[at32 num x5]]),
    ("xcg", .real [[at32 num x6]]), ("ycg", .real [[at32 num x7]]), ("zcg", .real [[at32 num x8]]),
    ("xcb", .real [[at32 num x9]]), ("ycb", .real [[at32 num x10]]), ("zcb", .real [[at32 num x11]]),
    ("xrb", .real [[at32 num x12]]), ("yrb", .real [[at32 num x13]]), ("zrb", .real [[at32 num x14]])] ++
    [("t", .real (m.map (·.map (at32 num))))]⟩, ?_, ?_⟩
  · have hp : (bodyCols.mapM fun n => do
        let x ← real num (cell ((⟨"WBODY", [colI "nfield", colI "ibcond", colF "clenb",
          colF "bmass", colF "wsarea", colF "wparea", colF "vol", colF "xcg", colF "ycg",
          colF "zcg", colF "xcb", colF "ycb", colF "zcb", colF "xrb", colF "yrb", colF "zrb",
          ⟨"t", .flt, .mat 4 4⟩], []⟩ : Layout).cols ++ limitCols []) row) n
        Except.ok (n, PropVal.real [[x]])) = Except.ok (ε := Err) [("clenb", .real [[at32 num x1]]),
          ("bmass", .real [[at32 num x2]]), ("wsarea", .real [[at32 num x3]]), ("wparea", .real [[at32 num x4]]),
          ("vol", .real [[at32 num x5]]), ("xcg", .real [[at32 num x6]]), ("ycg", .real [[at32 num x7]]),
          ("zcg", .real [[at32 num x8]]), ("xcb", .real [[at32 num x9]]), ("ycb", .real [[at32 num x10]]),
          ("zcb", .real [[at32 num x11]]), ("xrb", .real [[at32 num x12]]), ("yrb", .real [[at32 num x13]]),
          ("zrb", .real [[at32 num x14]])] := by
      refine mapM_ok ?_
      have st : ∀ {n : String} {x : PyF} {rw : Row}, real num rw n = .ok (at32 num x) →
          (do let x ← real num rw n; Except.ok (n, PropVal.real [[x]])) =
            Except.ok (ε := Err) (n, PropVal.real [[at32 num x]]) := by
        intro n x rw h; rw [h]; rfl
      exact .cons (st p1) (.cons (st p2) (.cons (st p3) (.cons (st p4) (.cons (st p5)
        (.cons (st p6) (.cons (st p7) (.cons (st p8) (.cons (st p9) (.cons (st p10)
        (.cons (st p11) (.cons (st p12) (.cons (st p13) (.cons (st p14) .nil)))))))))))))
    unfold bodyPropRow
    rw [a1, b1, y1]
    change (List.mapM (m := Except Err) _ bodyCols >>= _) = _
    rw [hp]
    change (asMat num y >>= fun t => _) = _
    rw [y2]
    rfl
  · rintro ⟨_, _, _⟩ ⟨p', q', u', v', more', vals', t', h1, h2, h3, h4, h5, h6, h7⟩
    rw [hvl] at h2
    obtain ⟨rfl, rfl⟩ := List.append_inj h2 (by omega)
    match more, hml with
    | [c1, c2, c3, c4, c5, c6, c7, c8, c9, c10, c11, c12], _ =>
    rw [he, h1] at a2 b2 m4 q1 q2 q3 q4 q5 q6 q7 q8 q9 q10 q11 q12 q13 q14
    dsimp only at h7
    rw [(a2 _ rfl).unique h4, (b2 _ rfl).unique h5, h7,
      matrix_unique ht h6 (fun m' hm' => m4 m' (by rw [hm']; rfl)), ← q1 _ rfl, ← q2 _ rfl,
      ← q3 _ rfl, ← q4 _ rfl, ← q5 _ rfl, ← q6 _ rfl, ← q7 _ rfl, ← q8 _ rfl, ← q9 _ rfl,
      ← q10 _ rfl, ← q11 _ rfl, ← q12 _ rfl, ← q13 _ rfl, ← q14 _ rfl]
    rfl

end

/-! ### reference records -/

theorem refTypes_groups {n m : Nat} {q : List PyF} {ts : List (Int × List Val)}
    (h : RefTypes n m q ts) : ∀ p ∈ ts, ∃ d, Groups 2 d p.2 := by
  induction h with
  | nil => simp
  | cons h1 h2 h3 _ ih =>
    intro p hp
    rcases List.mem_cons.mp hp with rfl | hp
    · exact ⟨_, h2⟩
    · exact ih p hp

section
variable {K : Type} {num : PyF → K}

/-- the second numbers of the stored pairs -/
theorem second_items {k : Int} {n m : Nat} {q : List PyF} {ts : List (Int × List Val)}
    (ht : RefTypes n m q ts) {o : Option (List Val)} (hp : PairsFor k ts o) {c : Option (List Cell)}
    (hc : match (o, c) with
      | (some vs, some cs) => List.Forall₂ (Stored .flt (.vec 2)) vs cs
      | (none, none) => True
      | _ => False) :
    ∃ ys : List K, List.Forall₂ (fun c y => second num c = .ok y) (c.getD []) ys ∧
      ∀ xs, Seconds num k ts xs → xs = ys := by
  cases hp with
  | @given vs h1 h2 =>
    cases c with
    | none => exact hc.elim
    | some cs =>
      obtain ⟨d, gs, g1, -, hvs⟩ := refTypes_groups ht _ h1
      dsimp only at hvs hc
      subst hvs
      have : ∃ ps : List (PyF × PyF), gs = ps.map (fun p => [p.1, p.2]) := by
        clear hc h1
        induction gs with
        | nil => exact ⟨[], rfl⟩
        | cons g gs ih =>
          obtain ⟨ps, hps⟩ := ih fun g hg => g1 g (by simp [hg])
          match g, g1 g (by simp) with
          | [x, y], _ => exact ⟨(x, y) :: ps, by rw [hps]; rfl⟩
      obtain ⟨ps, rfl⟩ := this
      refine ⟨ps.map fun p => at32 num p.2, ?_, fun xs hxs => ?_⟩
      · clear h1 g1
        change List.Forall₂ _ cs _
        induction ps generalizing cs with
        | nil => cases hc; exact .nil
        | cons p ps ih =>
          simp only [List.map_cons] at hc
          cases hc with
          | @cons _ c _ cs k1 k2 =>
            refine .cons ?_ (ih _ k2)
            unfold vector at k1
            generalize hS : Shape.vec 2 = S at k1
            cases k1 with
            | vec k1 =>
              cases k1 with
              | cons k1 k2 => cases k2 with
                | cons k2 k3 =>
                  cases k3
                  cases k1 with
                  | flt _ => cases k2 with
                    | flt k2 => rw [k2.eq]; rfl
      · cases hxs with
        | given ps' h3 h4 =>
          have hnd : ∀ {ts : List (Int × List Val)}, (ts.map Prod.fst).Nodup → ∀ {k a b},
              (k, a) ∈ ts → (k, b) ∈ ts → a = b := by
            intro ts hnd k a b ha hb
            have := List.inj_on_of_nodup_map hnd ha hb rfl
            cases this; rfl
          have := hnd h2 h1 h3
          rw [List.map_map] at this
          have hinj : Function.Injective (vector ∘ fun p : PyF × PyF => [p.1, p.2]) := by
            rintro ⟨x, y⟩ ⟨z, w⟩ hxy
            simpa [vector] using hxy
          have := List.map_injective_iff.mpr hinj this
          rw [this]
        | absent h3 => exact absurd (List.mem_map.mpr ⟨_, h1, rfl⟩) h3
  | absent h1 =>
    cases c with
    | none =>
      refine ⟨[], .nil, fun xs hxs => ?_⟩
      cases hxs with
      | given ps' h3 h4 => exact absurd (List.mem_map.mpr ⟨_, h3, rfl⟩) h1
      | absent _ => rfl
    | some cs => exact hc.elim

end

/-- the arrays of a table -/
theorem fold_arrs (k : Nat) : ∀ (os : List Added) (t : Acc) (a : List Cell), t.arrs[k]? = some a →
    (∀ o ∈ os, k < o.items.length) →
    (os.foldl (fun t o => t.add o.first o.cells o.items) t).arrs[k]? =
      some (a ++ os.flatMap fun o => ((o.items[k]?).getD none).getD [])
  | [], t, a, h, _ => by simpa using h
  | o :: os, t, a, h, hi => by
    have h1 := hi o (by simp)
    have : (t.add o.first o.cells o.items).arrs[k]? = some (a ++ ((o.items[k]?).getD none).getD []) := by
      unfold Acc.add
      simp only [List.getElem?_zipWith, h, List.getElem?_eq_getElem h1]
      cases o.items[k] <;> simp
    rw [List.foldl_cons, fold_arrs k os _ _ this fun o ho => hi o (by simp [ho])]
    simp

section
variable {sk : LRec → Bool} {e0 : Int → Option Int}
  {f : List LRec} {outs : List Added} {names : List String} {pl : Place} {s : Int} {h0 : H5}
  {lev dt : String} {ix : Option (Option Int)} {h : H5} {K : Type} {num : PyF → K}

/-- the layout of reference records -/
def refLayout : Layout :=
  ⟨"WDRESREF", [colI "nfield", colI "iwres", colI "nresrf", colI "numtyp"],
    [arrV "dir" 2, arrV "freq" 2, arrV "time" 2]⟩

theorem load_refs (j : Job none sk e0 f outs names pl s h0 lev dt ix)
    (hc : Converted outs names pl s h0 lev dt ix h) :
    ∃ o, loadRefs num h (pl.path s) = .ok o ∧ (recordsOf "WDRESREF" f = [] → o = none) ∧
      ∀ xs, xs ≠ [] → List.Forall₂ (IsRefs num) (recordsOf "WDRESREF" f) xs →
        o = some (xs.flatMap fun x => x.1, xs.flatMap fun x => x.2.1, xs.flatMap fun x => x.2.2) := by
  have hl : refLayout ∈ layouts := by decide +kernel
  have ha := added_of j hl
  have hit := added_items j hl
  rcases table_of j hc hl with ⟨he, ht⟩ | ⟨he, ht⟩
  · refine ⟨none, ?_, fun _ => rfl, fun bs hbs hf => ?_⟩
    · unfold loadRefs
      rw [show h.tabs (pl.path s, "WDRESREF") = none from ht]
    · rw [show recordsOf "WDRESREF" f = [] from he] at hf
      exact absurd (List.forall₂_nil_left_iff.mp hf) hbs
  · have hread : ∃ yss : List (List K × List K × List K),
        (List.Forall₂ (fun c y => second num c = .ok y)
          ((ofType refLayout.name outs).flatMap fun o => ((o.items[0]?).getD none).getD [])
          (yss.flatMap fun x => x.1)) ∧
        (List.Forall₂ (fun c y => second num c = .ok y)
          ((ofType refLayout.name outs).flatMap fun o => ((o.items[1]?).getD none).getD [])
          (yss.flatMap fun x => x.2.1)) ∧
        (List.Forall₂ (fun c y => second num c = .ok y)
          ((ofType refLayout.name outs).flatMap fun o => ((o.items[2]?).getD none).getD [])
          (yss.flatMap fun x => x.2.2)) ∧
        List.Forall₂ (fun r ys => ∀ xs, IsRefs num r xs → xs = ys) (recordsOf refLayout.name f) yss := by
      clear ht he hit
      generalize ofType refLayout.name outs = os at ha
      generalize recordsOf refLayout.name f = recs at ha
      induction ha with
      | nil => exact ⟨[], .nil, .nil, .nil, .nil⟩
      | @cons r o recs os hh _ ih =>
        obtain ⟨yss, i1, i2, i3, i4⟩ := ih
        obtain ⟨hn, past, next, e, hm, hsr, hsi⟩ := hh
        obtain ⟨p, q, u, v, n, m, ts, dir, freq, time, hh, hu, hv', hts, hd, hf, htm, he⟩ :=
          means_wdresref hm (by rw [hn]; decide)
        rw [he] at hsi
        obtain ⟨g1, g2, g3⟩ := hsi
        match hO : o.items, g3 with
        | [c1, c2, c3], _ =>
        rw [hO] at g1
        change List.Forall₂ _ [arrV "dir" 2, arrV "freq" 2, arrV "time" 2]
          [(dir, c1), (freq, c2), (time, c3)] at g1
        cases g1 with
        | cons k1 g1 => cases g1 with
          | cons k2 g1 => cases g1 with
            | cons k3 g1 =>
              obtain ⟨y1, z1, w1⟩ := second_items (num := num) hts hd (c := c1) k1
              obtain ⟨y2, z2, w2⟩ := second_items (num := num) hts hf (c := c2) k2
              obtain ⟨y3, z3, w3⟩ := second_items (num := num) hts htm (c := c3) k3
              refine ⟨(y1, y2, y3) :: yss, ?_, ?_, ?_, .cons ?_ i4⟩
              · rw [List.flatMap_cons, List.flatMap_cons, hO]; exact List.rel_append z1 i1
              · rw [List.flatMap_cons, List.flatMap_cons, hO]; exact List.rel_append z2 i2
              · rw [List.flatMap_cons, List.flatMap_cons, hO]; exact List.rel_append z3 i3
              · rintro ⟨x1, x2, x3⟩ ⟨p', q', u', v', n', m', ts', h1, h2, h3, h4, h5, h6, h7⟩
                rw [hh] at h1
                cases h1
                obtain rfl := hu.unique h2
                obtain rfl := hv'.unique h3
                obtain rfl := refTypes_unique hts h4
                rw [← w1 x1 h5, ← w2 x2 h6, ← w3 x3 h7]
    obtain ⟨yss, r1, r2, r3, r4⟩ := hread
    have harr : (contents refLayout outs).arrs =
        [(ofType refLayout.name outs).flatMap fun o => ((o.items[0]?).getD none).getD [],
         (ofType refLayout.name outs).flatMap fun o => ((o.items[1]?).getD none).getD [],
         (ofType refLayout.name outs).flatMap fun o => ((o.items[2]?).getD none).getD []] := by
      have hlen : (contents refLayout outs).arrs.length = 3 :=
        contents_length fun o ho hon => hit o (by simp [ofType, ho, hon])
      have get : ∀ k, k < 3 → (contents refLayout outs).arrs[k]? = some
          ((ofType refLayout.name outs).flatMap fun o => ((o.items[k]?).getD none).getD []) := by
        intro k hk
        rw [contents_eq]
        have := fold_arrs k (ofType refLayout.name outs) (Acc.start refLayout) []
          (by match k, hk with
            | 0, _ => rfl
            | 1, _ => rfl
            | 2, _ => rfl)
          (fun o ho => by rw [hit o ho]; exact hk)
        simpa using this
      match hA : (contents refLayout outs).arrs, hlen with
      | [x, y, z], _ =>
      have e0 := get 0 (by omega)
      have e1 := get 1 (by omega)
      have e2 := get 2 (by omega)
      rw [hA] at e0 e1 e2
      injection e0 with e0
      injection e1 with e1
      injection e2 with e2
      rw [e0, e1, e2]
    refine ⟨some (yss.flatMap fun x => x.1, yss.flatMap fun x => x.2.1, yss.flatMap fun x => x.2.2), ?_,
      fun he' => absurd he' he, fun xs _ hf => ?_⟩
    · unfold loadRefs
      rw [show h.tabs (pl.path s, "WDRESREF") = _ from ht]
      have ht' : ((contents refLayout outs).table refLayout).arrs =
          [{ arrV "dir" 2 with items := (ofType refLayout.name outs).flatMap fun o =>
               ((o.items[0]?).getD none).getD [] },
           { arrV "freq" 2 with items := (ofType refLayout.name outs).flatMap fun o =>
               ((o.items[1]?).getD none).getD [] },
           { arrV "time" 2 with items := (ofType refLayout.name outs).flatMap fun o =>
               ((o.items[2]?).getD none).getD [] }] := by
        unfold Acc.table
        rw [harr]
        rfl
      have d1 : array ((contents refLayout outs).table refLayout) "dir" (second num) = .ok
          (yss.flatMap fun x => x.1) := by
        unfold array; rw [ht']; exact mapM_ok r1
      have d2 : array ((contents refLayout outs).table refLayout) "freq" (second num) = .ok
          (yss.flatMap fun x => x.2.1) := by
        unfold array; rw [ht']; exact mapM_ok r2
      have d3 : array ((contents refLayout outs).table refLayout) "time" (second num) = .ok
          (yss.flatMap fun x => x.2.2) := by
        unfold array; rw [ht']; exact mapM_ok r3
      simp only [d1, d2, d3]
      rfl
    · have : List.Forall₂ (fun a b => a = b) xs yss :=
        (forall₂_comp hf r4).imp fun a b ⟨r, h1, h2⟩ => h2 a h1
      rw [List.forall₂_eq_eq_eq] at this
      rw [this]

end

end Verif.Data.Load
