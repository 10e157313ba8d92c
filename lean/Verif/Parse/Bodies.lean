import Verif.Parse.Reads
/-!
# The readers on well formed records

For each record layout of the specification: the loop body of the reader hands exactly the row and
items of the specification to its table and consumes exactly the record.
-/

namespace Verif.Parse
open Verif Verif.Seq

/-- the `add` calls for the items of one array -/
def addsOf : Option (List Val) → List (List Val)
  | none => []
  | some vs => [vs]

/-- the emission with given row and items -/
def emitOf (e : Entry) : Emit := { row := e.row, adds := e.items.map addsOf }

section
variable {name : String} {env : Env} {a b c d e f g h x y z : PyF} {head vals pad : List PyF}
  {sk : Nat}

theorem hierarchBody_reads {ihs : List PyF} (hd : HasInt d ihs.length) :
    Reads (hierarchBody name env head) ⟨name, head, [], 0, a :: b :: c :: d :: ihs, pad⟩
      (env, emitOf ⟨numbers (head ++ [a, b, c, d]), [some (numbers ihs)]⟩)
      ⟨name, head, [], 0, [], pad⟩ := by
  refine Reads.bind (Reads.floats (a := [a, b, c, d]) (b := ihs) rfl (fun _ => rfl)) ?_
  refine Reads.bind ?_ (Reads.ret _ _)
  refine Reads.bind (Reads.intAt (x := d) rfl hd _) ?_
  exact Reads.bind (Reads.floatsAll rfl (fun _ => rfl)) (Reads.ret _ _)

theorem textBody_reads {ts : List Str} {n : Int} (hc : HasInt c n) (hl : ts.length = n.toNat) :
    Reads (textBody name env [a, b, c, d]) ⟨name, [a, b, c, d], ts.map .text, sk, [], pad⟩
      (env, emitOf ⟨numbers [a, b, c, d], [some (ts.map fun t => .sc (.txt t))]⟩)
      ⟨name, [a, b, c, d], [], sk, [], pad⟩ := by
  refine Reads.bind (Reads.intAt (x := c) rfl hc _) ?_
  have h1 := Reads.lines (name := name) (head := [a, b, c, d]) (sk := sk) (vals := []) (pad := pad)
    .raw ts []
  rw [List.append_nil, hl] at h1
  have h2 : ts.map (textResult .raw) = ts := by
    conv => rhs; rw [← List.map_id ts]
    rfl
  rw [h2] at h1
  exact Reads.bind h1 (Reads.ret _ _)

theorem trims {ts ts' : List Str} (h : List.Forall₂ Trim ts ts') (m : LineMode) (hm : m ≠ .raw) :
    ts.map (textResult m) = ts' := by
  induction h with
  | nil => rfl
  | cons h1 _ ih =>
    rw [List.map_cons, ih]
    congr 1
    cases m with
    | raw => exact absurd rfl hm
    | strip => exact trim_eq h1
    | name => exact trim_eq h1

theorem tdBody_reads {ns ns' ts ts' : List Str} {n m : Int} (hc : HasInt c n) (hd : HasInt d m)
    (hn : ns.length = (n / 100).toNat) (hm : ts.length = (m / 100).toNat)
    (h1 : List.Forall₂ Trim ns ns') (h2 : List.Forall₂ Trim ts ts') :
    Reads (tdBody name env [a, b, c, d]) ⟨name, [a, b, c, d], (ns ++ ts).map .text, sk, [], pad⟩
      (env, emitOf ⟨numbers [a, b, c, d] ++ [.sc (.txt ns'.flatten)],
          [some (ts'.map fun t => .sc (.txt t))]⟩)
      ⟨name, [a, b, c, d], [], sk, [], pad⟩ := by
  refine Reads.bind (Reads.intAt (x := c) rfl hc _) ?_
  refine Reads.bind (Reads.intAt (x := d) rfl hd _) ?_
  have e : ∀ k : Int, rangeLen (floorDiv k 100) = (k / 100).toNat := by
    intro k; unfold rangeLen floorDiv; rw [Int.fdiv_eq_ediv_of_nonneg _ (by decide)]
  have r1 := Reads.lines (name := name) (head := [a, b, c, d]) (sk := sk) (vals := []) (pad := pad)
    .name ns (ts.map .text)
  have r2 := Reads.lines (name := name) (head := [a, b, c, d]) (sk := sk) (vals := []) (pad := pad)
    .strip ts []
  rw [trims h1 _ (by decide), ← List.map_append, hn, ← e] at r1
  rw [trims h2 _ (by decide), List.append_nil, hm, ← e] at r2
  exact Reads.bind r1 (Reads.bind r2 (Reads.ret _ _))

theorem elemNodes_of {ty : Int} {n : Nat} (h : NodeCount ty n) : elemNodes ty = some (n : Int) := by
  simp only [NodeCount, List.mem_cons, Prod.mk.injEq, List.not_mem_nil, or_false] at h
  rcases h with ⟨rfl, rfl⟩ | ⟨rfl, rfl⟩ | ⟨rfl, rfl⟩ | ⟨rfl, rfl⟩ | ⟨rfl, rfl⟩ | ⟨rfl, rfl⟩ |
    ⟨rfl, rfl⟩ | ⟨rfl, rfl⟩ <;> rfl

theorem gelmnt1Body_reads {elno ty : Int} {nod : List PyF} (hb : HasInt b elno) (hc : HasInt c ty)
    (hn : NodeCount ty nod.length) :
    Reads (gelmnt1Body name env [a, b, c, d]) ⟨name, [a, b, c, d], [], 8, nod, pad⟩
      ({ env with elem := upd env.elem elno ty },
        emitOf ⟨numbers [a, b, c, d], [some (numbers nod)]⟩)
      ⟨name, [a, b, c, d], [], 8, [], pad⟩ := by
  refine Reads.bind (Reads.intAt (x := c) rfl hc _) ?_
  refine Reads.bind (Reads.intAt (x := b) rfl hb _) ?_
  refine Reads.bind (Reads.look (elemNodes_of hn) _) ?_
  exact Reads.bind (Reads.floatsAll rfl (fun _ => rfl)) (Reads.ret _ _)

theorem gelmnt2Body_reads {t nod : List PyF} {n : PyF} (ht : t.length = 12)
    (hn : HasInt n nod.length) :
    Reads (gelmnt2Body name env head) ⟨name, head, [], 8, t ++ n :: nod, pad⟩
      (env, emitOf ⟨numbers head ++ [vector t, .sc (.int nod.length)], [some (numbers nod)]⟩)
      ⟨name, head, [], 8, [], pad⟩ := by
  refine Reads.bind (Reads.floats (by rw [ht]; rfl) (fun _ => rfl)) ?_
  refine Reads.bind (Reads.floats (a := [n]) (b := nod) rfl (fun _ => rfl)) ?_
  refine Reads.bind (Reads.intAt (x := n) rfl hn _) ?_
  exact Reads.bind (Reads.floatsAll rfl (fun _ => rfl)) (Reads.ret _ _)

theorem gelref1Ref_reads {nn : Nat} {l more : List PyF} (h : Refs nn x l) :
    Reads (gelref1Ref nn x) ⟨name, head, [], 8, l ++ more, pad⟩ (numbers l)
      ⟨name, head, [], 8, more, pad⟩ := by
  unfold gelref1Ref
  by_cases hx : x = .rat (-1)
  · rw [if_pos (eqInt_iff.mpr (by rw [hx]; rfl))]
    refine Reads.bind (Reads.floats (by rw [h.1 hx]) (fun _ => rfl)) (Reads.ret _ _)
  · rw [if_neg (by rw [eqInt_iff]; exact hx), h.2 hx]
    exact Reads.ret _ _

theorem gelref1Body_reads {rec2 geo fix ecc trans : List PyF} {x0 x1 x2 x3 : PyF} {elno ty : Int}
    {nn : Nat} (ha : HasInt a elno) (ht : env.elem elno = some ty) (hn : NodeCount ty nn)
    (h0 : Refs nn x0 geo) (h1 : Refs nn x1 fix) (h2 : Refs nn x2 ecc) (h3 : Refs nn x3 trans) :
    Reads (gelref1Body name env [a, b, c, d])
      ⟨name, [a, b, c, d], [.recd 8 rec2, .recd 8 [x0, x1, x2, x3]], 8,
        geo ++ fix ++ ecc ++ trans, pad⟩
      (env, emitOf ⟨numbers ([a, b, c, d] ++ rec2 ++ [x0, x1, x2, x3]),
          [some (numbers geo), some (numbers fix), some (numbers ecc), some (numbers trans)]⟩)
      ⟨name, [a, b, c, d], [], 8, [], pad⟩ := by
  refine Reads.bind Reads.floatrec ?_
  refine Reads.bind Reads.floatrec ?_
  refine Reads.bind (Reads.intAt (x := a) rfl ha _) ?_
  refine Reads.bind (Reads.look ht _) ?_
  refine Reads.bind (Reads.look (elemNodes_of hn) _) ?_
  simp only [List.append_assoc]
  refine Reads.bind (Reads.idx (x := x0) rfl _) ?_
  refine Reads.bind (gelref1Ref_reads h0) ?_
  refine Reads.bind (Reads.idx (x := x1) rfl _) ?_
  refine Reads.bind (gelref1Ref_reads h1) ?_
  refine Reads.bind (Reads.idx (x := x2) rfl _) ?_
  refine Reads.bind (gelref1Ref_reads h2) ?_
  refine Reads.bind (Reads.idx (x := x3) rfl _) ?_
  have h3 := gelref1Ref_reads (name := name) (head := [a, b, c, d]) (pad := pad) (more := []) h3
  rw [List.append_nil] at h3
  exact Reads.bind h3 (Reads.ret _ _)

theorem gsetmembBody_reads {mem : List PyF} (ha : HasInt a (mem.length + 5)) :
    Reads (gsetmembBody name env [a, b, c, d]) ⟨name, [a, b, c, d], [], 0, e :: mem, pad⟩
      (env, emitOf ⟨numbers [a, b, c, d, e], [some (numbers mem)]⟩)
      ⟨name, [a, b, c, d], [], 0, [], pad⟩ := by
  refine Reads.bind (Reads.floats (a := [e]) (b := mem) rfl (fun _ => rfl)) ?_
  refine Reads.bind (Reads.intAt (x := a) rfl ha _) ?_
  exact Reads.bind (Reads.floatsAll (by omega) (fun _ => rfl)) (Reads.ret _ _)

theorem sconcept7_reads {p j : PyF} {parts joins : List PyF} (hc : HasInt c 7)
    (hp : HasInt p parts.length) (hj : HasInt j joins.length) :
    Reads (sconceptBody name env [a, b, c, d])
      ⟨name, [a, b, c, d], [], 0, e :: p :: j :: (parts ++ joins), pad⟩
      (env, emitOf ⟨numbers [a, b, c, d, e, p, j], [some (numbers parts), some (numbers joins)]⟩)
      ⟨name, [a, b, c, d], [], 0, [], pad⟩ := by
  refine Reads.bind (Reads.intAt (x := c) rfl hc _) ?_
  refine Reads.bind (Reads.floats (a := [e]) (b := p :: j :: (parts ++ joins)) rfl
    (fun _ => rfl)) ?_
  simp only [↓reduceIte]
  refine Reads.bind (Reads.floats (a := [p, j]) (b := parts ++ joins) rfl (fun _ => rfl)) ?_
  refine Reads.bind (Reads.intAt (x := p) rfl hp _) ?_
  refine Reads.bind (Reads.intAt (x := j) rfl hj _) ?_
  refine Reads.bind (Reads.floats rfl (fun _ => rfl)) ?_
  exact Reads.bind (Reads.floatsAll rfl (fun _ => rfl)) (Reads.ret _ _)

theorem sconcept2_reads (hc : HasInt c 2) :
    Reads (sconceptBody name env [a, b, c, d]) ⟨name, [a, b, c, d], [], 0, [e], pad⟩
      (env, emitOf ⟨numbers [a, b, c, d, e, .rat 0, .rat 0], [some [], some []]⟩)
      ⟨name, [a, b, c, d], [], 0, [], pad⟩ := by
  refine Reads.bind (Reads.intAt (x := c) rfl hc _) ?_
  refine Reads.bind (Reads.floatsAll (a := [e]) rfl (fun _ => rfl)) ?_
  exact Reads.ret _ _

theorem sconmeshBody_reads {reps : List PyF} (he : HasInt e reps.length) :
    Reads (sconmeshBody name env [a, b, c, d]) ⟨name, [a, b, c, d], [], 0, e :: reps, pad⟩
      (env, emitOf ⟨numbers [a, b, c, d, e], [some (numbers reps)]⟩)
      ⟨name, [a, b, c, d], [], 0, [], pad⟩ := by
  refine Reads.bind (Reads.floats (a := [e]) (b := reps) rfl (fun _ => rfl)) ?_
  refine Reads.bind (Reads.intAt (x := e) rfl he _) ?_
  exact Reads.bind (Reads.floatsAll rfl (fun _ => rfl)) (Reads.ret _ _)

theorem bnbcdBody_reads {n : Nat} (hb : HasInt b n) (hl : vals.length = n - 2)
    (hs : vals ≠ [] → sk = 8) :
    Reads (bnbcdBody name env [a, b, c, d]) ⟨name, [a, b, c, d], [], sk, vals, pad⟩
      (env, emitOf ⟨numbers [a, b], [some (numbers ((c :: d :: vals).take n))]⟩)
      ⟨name, [a, b, c, d], [], sk, [], pad⟩ := by
  refine Reads.bind (Reads.intAt (x := b) rfl hb _) ?_
  by_cases h : ((n : Nat) : Int) < 3
  · rw [if_pos h]
    have hv : vals = [] := List.length_eq_zero_iff.mp (by omega)
    subst hv
    have hn : n = 0 ∨ n = 1 ∨ n = 2 := by omega
    rcases hn with rfl | rfl | rfl <;> exact Reads.ret _ _
  · rw [if_neg h]
    refine Reads.bind (Reads.floatsAll (by omega) hs) ?_
    have : (c :: d :: vals).take n = c :: d :: vals := by
      rw [List.take_of_length_le]; simp only [List.length_cons]; omega
    rw [this]
    exact Reads.ret _ _

theorem bldepBody_reads {n : Int} {deps : List (PyF × PyF × PyF × List PyF)} (hd : HasInt d n)
    (hl : deps.length = n.toNat) :
    Reads (bldepBody name env [a, b, c, d])
      ⟨name, [a, b, c, d], deps.map fun p => .recd 8 (p.1 :: p.2.1 :: p.2.2.1 :: p.2.2.2), sk, [],
        pad⟩
      (env, emitOf ⟨numbers [a, b, c, d],
        [some (deps.map fun p => vector [p.1, p.2.1, p.2.2.1])]⟩)
      ⟨name, [a, b, c, d], [], sk, [], pad⟩ := by
  refine Reads.bind (Reads.intAt (x := d) rfl hd _) ?_
  have h1 := Reads.times (p := Seq.floatrec 8)
    (fun ds : List (PyF × PyF × PyF × List PyF) => (⟨name, [a, b, c, d],
      ds.map fun p => .recd 8 (p.1 :: p.2.1 :: p.2.2.1 :: p.2.2.2), sk, [], pad⟩ : LRec))
    (fun p => p.1 :: p.2.1 :: p.2.2.1 :: p.2.2.2) (fun _ _ => Reads.floatrec) deps
  rw [hl] at h1
  refine Reads.bind h1 ?_
  have : ((deps.map fun p => p.1 :: p.2.1 :: p.2.2.1 :: p.2.2.2).map fun d : List PyF =>
      tup (d.take 3)) = deps.map fun p => vector [p.1, p.2.1, p.2.2.1] := by
    rw [List.map_map]; rfl
  rw [this]
  exact Reads.ret _ _

theorem beusloBody_reads {rload iload : List PyF} (hf : HasInt f rload.length)
    (h0 : c = .rat 0 → iload = []) (h1 : c ≠ .rat 0 → iload.length = rload.length) :
    Reads (beusloBody name env [a, b, c, d])
      ⟨name, [a, b, c, d], [.recd 8 [e, f, g, h]], 8, rload ++ iload, pad⟩
      (env, emitOf ⟨numbers [a, b, c, d, e, f, g, h],
        [some (numbers rload), some (numbers iload)]⟩)
      ⟨name, [a, b, c, d], [], 8, [], pad⟩ := by
  refine Reads.bind Reads.floatrec ?_
  refine Reads.bind (Reads.intAt (x := f) rfl hf _) ?_
  refine Reads.bind (Reads.floats rfl (fun _ => rfl)) ?_
  refine Reads.bind (Reads.idx (x := c) rfl _) ?_
  by_cases hc : c = .rat 0
  · rw [h0 hc, if_neg (by rw [truthy_iff]; exact fun h => h hc)]
    exact Reads.bind (Reads.ret _ _) (Reads.ret _ _)
  · rw [if_pos (truthy_iff.mpr hc)]
    exact Reads.bind (Reads.floatsAll (by rw [h1 hc]) (fun _ => rfl)) (Reads.ret _ _)

theorem fit_exact {n : Nat} {l : List PyF} (h : l.length = n) : fit n l = l := by
  unfold fit
  rw [List.take_append_of_le_length (by omega), ← h, List.take_length]

theorem brigacBody_reads {more im : List PyF} (hm : more.length = 10)
    (h0 : c = .rat 0 → im = []) (h1 : c ≠ .rat 0 → im.length = 6) :
    Reads (brigacBody name env [a, b, c, d]) ⟨name, [a, b, c, d], [], 8, more ++ im, pad⟩
      (env, emitOf ⟨numbers (fit 20 ([a, b, c, d] ++ more ++ im)), []⟩)
      ⟨name, [a, b, c, d], [], 8, [], pad⟩ := by
  refine Reads.bind (Reads.floats (by rw [hm]; rfl) (fun _ => rfl)) ?_
  refine Reads.bind (Reads.idx (x := c) rfl _) ?_
  by_cases hc : c = .rat 0
  · rw [h0 hc, if_neg (by rw [truthy_iff]; exact fun h => h hc)]
    refine Reads.bind (Reads.ret _ _) ?_
    have : fit 20 ([a, b, c, d] ++ more ++ []) = [a, b, c, d] ++ more ++ List.replicate 6 zero := by
      unfold fit
      rw [List.append_nil, List.take_append, List.take_of_length_le (by simp [hm]),
        List.take_replicate]
      simp [hm, zero, PyF.ofInt]
    rw [this]
    exact Reads.ret _ _
  · rw [if_pos (truthy_iff.mpr hc)]
    refine Reads.bind (Reads.floatsAll (by rw [h1 hc]; rfl) (fun _ => rfl)) ?_
    rw [fit_exact (by simp [hm, h1 hc])]
    exact Reads.ret _ _

/-! matrices -/

theorem matrix4 {l : List PyF} {t : Val} (h : Matrix 4 4 l t) : t = mat4 l ∧ l.length = 16 := by
  obtain ⟨rows, h1, h2, rfl, rfl⟩ := h
  match rows, h1 with
  | [r1, r2, r3, r4], _ =>
    have l1 := h2 r1 (by simp)
    have l2 := h2 r2 (by simp)
    have l3 := h2 r3 (by simp)
    have l4 := h2 r4 (by simp)
    match r1, l1, r2, l2, r3, l3, r4, l4 with
    | [_, _, _, _], _, [_, _, _, _], _, [_, _, _, _], _, [_, _, _, _], _ => exact ⟨rfl, rfl⟩

theorem matrix3 {l : List PyF} {t : Val} (h : Matrix 3 3 l t) : t = mat3 l ∧ l.length = 9 := by
  obtain ⟨rows, h1, h2, rfl, rfl⟩ := h
  match rows, h1 with
  | [r1, r2, r3], _ =>
    have l1 := h2 r1 (by simp)
    have l2 := h2 r2 (by simp)
    have l3 := h2 r3 (by simp)
    match r1, l1, r2, l2, r3, l3 with
    | [_, _, _], _, [_, _, _], _, [_, _, _], _ => exact ⟨rfl, rfl⟩

theorem matrix6 {l : List PyF} {t : Val} (h : Matrix 6 6 l t) : t = mat6 l ∧ l.length = 36 := by
  obtain ⟨rows, h1, h2, rfl, rfl⟩ := h
  match rows, h1 with
  | [r1, r2, r3, r4, r5, r6], _ =>
    have l1 := h2 r1 (by simp)
    have l2 := h2 r2 (by simp)
    have l3 := h2 r3 (by simp)
    have l4 := h2 r4 (by simp)
    have l5 := h2 r5 (by simp)
    have l6 := h2 r6 (by simp)
    match r1, l1, r2, l2, r3, l3, r4, l4, r5, l5, r6, l6 with
    | [_, _, _, _, _, _], _, [_, _, _, _, _, _], _, [_, _, _, _, _, _], _, [_, _, _, _, _, _], _,
      [_, _, _, _, _, _], _, [_, _, _, _, _, _], _ => exact ⟨rfl, rfl⟩

theorem xsuptranBody_reads {i j : Int} {t : Val} (ha : HasInt a i) (hb : HasInt b j)
    (ht : Matrix 4 4 (c :: d :: vals) t) :
    Reads (xsuptranBody name env [a, b, c, d]) ⟨name, [a, b, c, d], [], 0, vals, pad⟩
      (env, emitOf ⟨[.sc (.int i), .sc (.int j), t], []⟩)
      ⟨name, [a, b, c, d], [], 0, [], pad⟩ := by
  obtain ⟨rfl, hl⟩ := matrix4 ht
  refine Reads.bind (Reads.intAt (x := a) rfl ha _) ?_
  refine Reads.bind (Reads.intAt (x := b) rfl hb _) ?_
  simp only [List.length_cons] at hl
  exact Reads.bind (Reads.floatsAll (by omega) (fun _ => rfl)) (Reads.ret _ _)

theorem compdefBody_reads {i : Int} (hb : HasInt b i) (hc : HasInt c (vals.length + 1)) :
    Reads (compdefBody name env [a, b, c, d]) ⟨name, [a, b, c, d], [], 0, vals, pad⟩
      ({ env with lenrec := upd env.lenrec (rvName name, i) (vals.length + 1) },
        emitOf ⟨numbers [a, b, c], [some (numbers (d :: vals))]⟩)
      ⟨name, [a, b, c, d], [], 0, [], pad⟩ := by
  refine Reads.bind (Reads.intAt (x := c) rfl hc _) ?_
  refine Reads.bind (Reads.intAt (x := b) rfl hb _) ?_
  exact Reads.bind (Reads.floatsAll (by omega) (fun _ => rfl)) (Reads.ret _ _)

/-! result points -/

theorem points_reads {n : Nat} {pts more : List PyF} {vs : List Val} (h : Points n pts vs) :
    ∃ l, Reads (respoint.times n) ⟨name, head, [], 0, pts ++ more, pad⟩ l
      ⟨name, head, [], 0, more, pad⟩ ∧ l.flatten = vs := by
  induction h with
  | nil => exact ⟨[], Reads.ret _ _, rfl⟩
  | @point n l vs p x y z hp _ ih =>
    obtain ⟨l', h1, rfl⟩ := ih
    refine ⟨[vector [p, x, y, z]] :: l', Reads.bind ?_ (Reads.bind h1 (Reads.ret _ _)), rfl⟩
    refine Reads.bind (Reads.floats (a := [p]) (b := x :: y :: z :: l ++ more) rfl
      (fun _ => rfl)) ?_
    refine Reads.bind (Reads.idx (x := p) rfl _) ?_
    rw [if_pos hp]
    exact Reads.bind (Reads.floats (a := [x, y, z]) (b := l ++ more) rfl (fun _ => rfl))
      (Reads.ret _ _)
  | @absent n l vs p hp _ ih =>
    obtain ⟨l', h1, rfl⟩ := ih
    refine ⟨[] :: l', Reads.bind ?_ (Reads.bind h1 (Reads.ret _ _)), rfl⟩
    refine Reads.bind (Reads.floats (a := [p]) (b := l ++ more) rfl (fun _ => rfl)) ?_
    refine Reads.bind (Reads.idx (x := p) rfl _) ?_
    rw [hp]
    exact Reads.ret _ _

theorem xforms_reads {xs : List (List PyF)} {vs : List Val}
    (h : List.Forall₂ (Matrix 3 3) xs vs) :
    Reads (xform.times xs.length) ⟨name, head, [], 0, xs.flatten, pad⟩ vs
      ⟨name, head, [], 0, [], pad⟩ := by
  induction h with
  | nil => exact Reads.ret _ _
  | @cons x v xs vs h1 _ ih =>
    obtain ⟨rfl, hl⟩ := matrix3 h1
    have h2 : Reads xform ⟨name, head, [], 0, (x :: xs).flatten, pad⟩ (mat3 x)
        ⟨name, head, [], 0, xs.flatten, pad⟩ :=
      Reads.bind (Reads.floats (by rw [hl]; rfl) (fun _ => rfl)) (Reads.ret _ _)
    exact Reads.bind h2 (Reads.bind ih (Reads.ret _ _))

theorem rdpointsBody_reads {pts : List PyF} {pvs xvs : List Val} {xs : List (List PyF)}
    {p : PointsRec} {r : LRec}
    (hr : r = ⟨"RDPOINTS", head, [], 0, a :: b :: c :: d :: e :: (pts ++ xs.flatten), pad⟩)
    (hp : IsPoints r p)
    (h1 : Points (p.nok * p.noj * p.noi) pts pvs) (h2 : List.Forall₂ (Matrix 3 3) xs xvs)
    (h3 : xs.length = p.nsptra.toNat) :
    Reads (rdpointsBody name env head) r
      ({ env with
          rdpoints := upd env.rdpoints p.icoref (p.nlay, (p.nok : Int), (p.noj : Int), (p.noi : Int)),
          nsp := upd env.nsp (p.ispalt, p.iielno) p.nsp },
        emitOf ⟨numbers (head ++ [a, b, c, d, e]), [some pvs, some xvs]⟩)
      { r with pre := [], vals := [] } := by
  subst hr
  obtain ⟨_, hi, hj, a', b', c', d', e', f', g', h', i', more, hh, hv, v1, v2, v3, v4, v5, v6,
    v7⟩ := hp
  simp only at hh hv
  injection hv with q1 hv
  injection hv with q2 hv
  injection hv with q3 hv
  injection hv with q4 hv
  injection hv with q5 hv
  subst q1 q2 q3 q4 q5 hh
  have n1 : floorDiv (10000 * (p.nok : Int) + 100 * p.noj + p.noi) 10000 = p.nok := by
    unfold floorDiv; rw [Int.fdiv_eq_ediv_of_nonneg _ (by decide)]; omega
  have n2 : floorDiv ((10000 * (p.nok : Int) + 100 * p.noj + p.noi).fmod 10000) 100 = p.noj := by
    unfold floorDiv
    rw [Int.fdiv_eq_ediv_of_nonneg _ (by decide), Int.fmod_eq_emod_of_nonneg _ (by decide)]; omega
  have n3 : (10000 * (p.nok : Int) + 100 * p.noj + p.noi).fmod 100 = p.noi := by
    rw [Int.fmod_eq_emod_of_nonneg _ (by decide)]; omega
  refine Reads.bind (Reads.floats (a := [a, b, c, d, e]) (b := pts ++ xs.flatten) rfl
    (fun _ => rfl)) ?_
  refine Reads.bind (Reads.intAt rfl v1 _) ?_
  refine Reads.bind (Reads.intAt rfl v2 _) ?_
  refine Reads.bind (Reads.intAt rfl v3 _) ?_
  refine Reads.bind (Reads.intAt rfl v4 _) ?_
  refine Reads.bind (Reads.intAt rfl v5 _) ?_
  refine Reads.bind (Reads.intAt rfl v6 _) ?_
  refine Reads.bind (Reads.intAt rfl v7 _) ?_
  simp only [n1, n2, n3]
  have m1 : rangeLen (p.nok : Int) * rangeLen (p.noj : Int) * rangeLen (p.noi : Int) =
      p.nok * p.noj * p.noi := rfl
  rw [m1]
  obtain ⟨l, r1, rfl⟩ := points_reads (name := "RDPOINTS") (head := [a', b', c', d']) (pad := pad)
    (more := xs.flatten) h1
  refine Reads.bind r1 ?_
  have r2 := xforms_reads (name := "RDPOINTS") (head := [a', b', c', d']) (pad := pad) h2
  rw [h3] at r2
  exact Reads.bind r2 (Reads.ret _ _)

/-! groups -/

theorem groups_reads {m : Nat} {more l : List PyF} {vs : List Val} {n : Nat} (h : Groups m l vs)
    (hn : vs.length = n) :
    ∃ gs, Reads ((Seq.floats m).times n) ⟨name, head, [], 0, l ++ more, pad⟩ gs
      ⟨name, head, [], 0, more, pad⟩ ∧ gs.map tup = vs := by
  obtain ⟨gs, h1, rfl, rfl⟩ := h
  refine ⟨gs, ?_, rfl⟩
  rw [List.length_map] at hn
  rw [← hn]
  exact Reads.groups more h1

theorem groupsAll_reads {m : Nat} {l : List PyF} {vs : List Val} {n : Nat} (h : Groups m l vs)
    (hn : vs.length = n) :
    ∃ gs, Reads ((Seq.floats m).times n) ⟨name, head, [], 0, l, pad⟩ gs
      ⟨name, head, [], 0, [], pad⟩ ∧ gs.map tup = vs := by
  have := groups_reads (name := name) (head := head) (pad := pad) (more := []) h hn
  rwa [List.append_nil] at this

theorem rdielcorBody_reads {i : Int} {gamma beta alpha lays : List PyF} {lvs : List Val}
    {G : Int × Nat × Nat × Nat} (hb : HasInt b i)
    (hg : rdielcorGrid env i = some (G.1, (G.2.1 : Int), (G.2.2.1 : Int), (G.2.2.2 : Int)))
    (h1 : 1 ≤ G.2.1) (h2 : gamma.length = G.2.1 - 1) (h3 : beta.length = G.2.2.1)
    (h4 : alpha.length = G.2.2.2) (h5 : Groups 2 lays lvs) (h6 : lvs.length = G.1.toNat) :
    Reads (rdielcorBody name env [a, b, c, d])
      ⟨name, [a, b, c, d], [], 0, gamma ++ beta ++ alpha ++ lays, pad⟩
      ({ env with grid := some (G.1, (G.2.1 : Int), (G.2.2.1 : Int), (G.2.2.2 : Int)) },
        emitOf ⟨numbers [a, b, c], [some (numbers (d :: gamma)), some (numbers beta),
          some (numbers alpha), some lvs]⟩)
      ⟨name, [a, b, c, d], [], 0, [], pad⟩ := by
  refine Reads.bind (Reads.intAt (x := b) rfl hb _) ?_
  rw [hg]
  simp only [List.append_assoc]
  obtain ⟨gs, r1, rfl⟩ := groupsAll_reads (name := name) (head := [a, b, c, d]) (pad := pad) h5 h6
  by_cases hk : ((G.2.1 : Nat) : Int) = 1
  · rw [if_pos hk]
    have : gamma = [] := List.length_eq_zero_iff.mp (by omega)
    subst this
    refine Reads.bind (Reads.ret _ _) ?_
    refine Reads.bind (Reads.floats (a := beta) (by rw [h3]) (fun _ => rfl)) ?_
    refine Reads.bind (Reads.floats (a := alpha) (by rw [h4]) (fun _ => rfl)) ?_
    exact Reads.bind r1 (Reads.ret _ _)
  · rw [if_neg hk, if_pos (by omega)]
    refine Reads.bind (Reads.floats (by omega) (fun _ => rfl)) ?_
    refine Reads.bind (Reads.ret _ _) ?_
    refine Reads.bind (Reads.floats (a := beta) (by rw [h3]) (fun _ => rfl)) ?_
    refine Reads.bind (Reads.floats (a := alpha) (by rw [h4]) (fun _ => rfl)) ?_
    exact Reads.bind r1 (Reads.ret _ _)

theorem rdresrefBody_reads {i j n : Int} {refs : List PyF} {rvs : List Val} (hb : HasInt b i)
    (hf : HasInt f j) (hg : HasInt g n) (h1 : Groups 3 refs rvs) (h2 : rvs.length = n.toNat) :
    Reads (rdresrefBody name env [a, b, c, d])
      ⟨name, [a, b, c, d], [], 0, e :: f :: g :: refs, pad⟩
      ({ env with rdresref := upd env.rdresref i j },
        emitOf ⟨numbers [a, b, c, d, e, f, g], [some rvs]⟩)
      ⟨name, [a, b, c, d], [], 0, [], pad⟩ := by
  refine Reads.bind (Reads.floats (a := [e, f, g]) (b := refs) rfl (fun _ => rfl)) ?_
  refine Reads.bind (Reads.intAt (x := b) rfl hb _) ?_
  refine Reads.bind (Reads.intAt (x := f) rfl hf _) ?_
  refine Reads.bind (Reads.intAt (x := g) rfl hg _) ?_
  obtain ⟨gs, r1, rfl⟩ := groupsAll_reads (name := name) (head := [a, b, c, d]) (pad := pad) h1 h2
  exact Reads.bind r1 (Reads.ret _ _)

theorem triplesBody_reads {n : Int} {vs : List Val} (hd : HasInt d n) (h1 : Groups 3 vals vs)
    (h2 : vs.length = n.toNat) :
    Reads (triplesBody name env [a, b, c, d]) ⟨name, [a, b, c, d], [], 0, vals, pad⟩
      (env, emitOf ⟨numbers [a, b, c, d], [some vs]⟩)
      ⟨name, [a, b, c, d], [], 0, [], pad⟩ := by
  refine Reads.bind (Reads.intAt (x := d) rfl hd _) ?_
  obtain ⟨gs, r1, rfl⟩ := groupsAll_reads (name := name) (head := [a, b, c, d]) (pad := pad) h1 h2
  exact Reads.bind r1 (Reads.ret _ _)

theorem rvnodresBody_reads {n i cplx : Int} {res : List PyF} (ha : HasInt a n) (hb : HasInt b i)
    (hc : env.rdresref i = some cplx) (h0 : 0 ≤ cplx)
    (hl : (res.length : Int) = (n - 5) / (cplx + 1)) :
    Reads (rvnodresBody name env [a, b, c, d]) ⟨name, [a, b, c, d], [], 0, e :: res, pad⟩
      (env, emitOf ⟨numbers [a, b, c, d, e], [some (numbers res)]⟩)
      ⟨name, [a, b, c, d], [], 0, [], pad⟩ := by
  refine Reads.bind (Reads.floats (a := [e]) (b := res) rfl (fun _ => rfl)) ?_
  refine Reads.bind (Reads.intAt (x := a) rfl ha _) ?_
  refine Reads.bind (Reads.intAt (x := b) rfl hb _) ?_
  refine Reads.bind (Reads.look hc _) ?_
  rw [if_neg (by omega)]
  refine Reads.bind (Reads.floatsAll ?_ (fun _ => rfl)) (Reads.ret _ _)
  unfold floorDiv
  rw [Int.fdiv_eq_ediv_of_nonneg _ (by omega), hl]

theorem rvelmresBody_reads {i j k l cplx nsp len : Int} {res : List PyF} (hb : HasInt b i)
    (hc : HasInt c j) (hd : HasInt d k) (he : HasInt e l) (h1 : env.nsp (k, j) = some nsp)
    (h2 : env.lenrec (name, l) = some len) (h3 : env.rdresref i = some cplx)
    (hl : (res.length : Int) = nsp * len * (cplx + 1)) :
    Reads (rvelmresBody name env [a, b, c, d]) ⟨name, [a, b, c, d], [], 0, e :: res, pad⟩
      (env, emitOf ⟨numbers [a, b, c, d, e], [some (numbers res)]⟩)
      ⟨name, [a, b, c, d], [], 0, [], pad⟩ := by
  refine Reads.bind (Reads.floats (a := [e]) (b := res) rfl (fun _ => rfl)) ?_
  refine Reads.bind (Reads.intAt (x := b) rfl hb _) ?_
  refine Reads.bind (Reads.intAt (x := c) rfl hc _) ?_
  refine Reads.bind (Reads.intAt (x := d) rfl hd _) ?_
  refine Reads.bind (Reads.intAt (x := e) rfl he _) ?_
  refine Reads.bind (Reads.look h1 _) ?_
  refine Reads.bind (Reads.look h2 _) ?_
  refine Reads.bind (Reads.look h3 _) ?_
  exact Reads.bind (Reads.floatsAll hl.symm (fun _ => rfl)) (Reads.ret _ _)

/-! wave data -/

theorem refTypes_reads {n : Int} {m : Nat} {ts : List (Int × List Val)} (hc : HasInt c n)
    (h : RefTypes n.toNat m vals ts) :
    Reads ((wdresrefType [a, b, c, d]).times m) ⟨name, head, [], 0, vals, pad⟩ ts
      ⟨name, head, [], 0, [], pad⟩ := by
  induction h with
  | nil => exact Reads.ret _ _
  | @cons m l ts x ty dd vs hx h1 h2 _ ih =>
    have r : Reads (wdresrefType [a, b, c, d]) ⟨name, head, [], 0, x :: (dd ++ l), pad⟩ (ty, vs)
        ⟨name, head, [], 0, l, pad⟩ := by
      refine Reads.bind (Reads.floats (a := [x]) (b := dd ++ l) rfl (fun _ => rfl)) ?_
      refine Reads.bind (Reads.intAt (x := x) rfl hx _) ?_
      refine Reads.bind (Reads.intAt (x := c) rfl hc _) ?_
      obtain ⟨gs, r1, rfl⟩ := groups_reads (name := name) (head := head) (pad := pad) (more := l)
        h1 h2
      exact Reads.bind r1 (Reads.ret _ _)
    exact Reads.bind r (Reads.bind ih (Reads.ret _ _))

theorem pairsFor_adds {k : Int} {ts : List (Int × List Val)} {o : Option (List Val)}
    (h : PairsFor k ts o) :
    wdresrefAdds k ts = addsOf o := by
  unfold wdresrefAdds
  cases h with
  | absent h =>
    have : ts.filter (fun p => decide (p.1 = k)) = [] := by
      rw [List.filter_eq_nil_iff]
      intro p hp hk
      simp only [decide_eq_true_eq] at hk
      exact h (List.mem_map.mpr ⟨p, hp, hk⟩)
    rw [this]; rfl
  | @given vs hm hnd =>
    have : ts.filter (fun p => decide (p.1 = k)) = [(k, vs)] := by
      induction ts with
      | nil => cases hm
      | cons p ts ih =>
        rw [List.map_cons, List.nodup_cons] at hnd
        rw [List.filter_cons]
        rcases List.mem_cons.mp hm with h | h
        · subst h
          simp only [decide_true, ↓reduceIte, List.cons.injEq, true_and]
          rw [List.filter_eq_nil_iff]
          intro p hp hk
          simp only [decide_eq_true_eq] at hk
          exact hnd.1 (List.mem_map.mpr ⟨p, hp, hk⟩)
        · rw [if_neg]
          · exact ih h hnd.2
          · simp only [decide_eq_true_eq]
            intro hk
            exact hnd.1 (List.mem_map.mpr ⟨_, h, hk.symm⟩)
    rw [this]; rfl

theorem wdresrefBody_reads {n m : Int} {ts : List (Int × List Val)}
    {dir freq time : Option (List Val)} (hc : HasInt c n) (hd : HasInt d m)
    (h : RefTypes n.toNat m.toNat vals ts) (h1 : PairsFor 1 ts dir) (h2 : PairsFor 2 ts freq)
    (h3 : PairsFor 3 ts time) :
    Reads (wdresrefBody name env [a, b, c, d]) ⟨name, [a, b, c, d], [], 0, vals, pad⟩
      (env, emitOf ⟨numbers [a, b, c, d], [dir, freq, time]⟩)
      ⟨name, [a, b, c, d], [], 0, [], pad⟩ := by
  refine Reads.bind (Reads.intAt (x := d) rfl hd _) ?_
  refine Reads.bind (refTypes_reads hc h) ?_
  rw [pairsFor_adds h1, pairsFor_adds h2, pairsFor_adds h3]
  exact Reads.ret _ _

theorem wglobdefInf_reads (hd : HasInt d 0) :
    Reads (wglobdefBody name env [a, b, c, d]) ⟨name, [a, b, c, d], [], sk, [], pad⟩
      (env, emitOf ⟨numbers [a, b, c, d, .rat 1], []⟩)
      ⟨name, [a, b, c, d], [], sk, [], pad⟩ := by
  refine Reads.bind (Reads.intAt (x := d) rfl hd _) ?_
  exact Reads.bind (Reads.ret _ _) (Reads.ret _ _)

theorem wglobdef_reads {n : Int} (hd : HasInt d n) (hn : n ≠ 0) :
    Reads (wglobdefBody name env [a, b, c, d]) ⟨name, [a, b, c, d], [], 0, [e], pad⟩
      (env, emitOf ⟨numbers [a, b, c, d, e], []⟩)
      ⟨name, [a, b, c, d], [], 0, [], pad⟩ := by
  refine Reads.bind (Reads.intAt (x := d) rfl hd _) ?_
  rw [if_pos hn]
  exact Reads.bind (Reads.floatsAll (a := [e]) rfl (fun _ => rfl)) (Reads.ret _ _)

theorem wbodyBody_reads {more : List PyF} {t : Val} (hm : more.length = 12)
    (ht : Matrix 4 4 vals t) :
    Reads (wbodyBody name env head) ⟨name, head, [], 0, more ++ vals, pad⟩
      (env, emitOf ⟨numbers (head ++ more) ++ [t], []⟩)
      ⟨name, head, [], 0, [], pad⟩ := by
  obtain ⟨rfl, hl⟩ := matrix4 ht
  refine Reads.bind (Reads.floats (by rw [hm]; rfl) (fun _ => rfl)) ?_
  exact Reads.bind (Reads.floatsAll (by rw [hl]; rfl) (fun _ => rfl)) (Reads.ret _ _)

theorem w1matrixBody_reads {t : Val} (ht : Matrix 6 6 vals t) :
    Reads (w1matrixBody name env head) ⟨name, head, [], 0, a :: b :: vals, pad⟩
      (env, emitOf ⟨numbers (head ++ [a, b]) ++ [t], []⟩)
      ⟨name, head, [], 0, [], pad⟩ := by
  obtain ⟨rfl, hl⟩ := matrix6 ht
  refine Reads.bind (Reads.floats (a := [a, b]) (b := vals) rfl (fun _ => rfl)) ?_
  exact Reads.bind (Reads.floatsAll (by rw [hl]; rfl) (fun _ => rfl)) (Reads.ret _ _)

theorem pairs_eq {l : List PyF} {zs : List Sc} (h : Pairs l zs) :
    complexes l = zs ∧ l.length = 2 * zs.length := by
  induction h with
  | nil => exact ⟨rfl, rfl⟩
  | cons a b _ ih =>
    refine ⟨by rw [complexes, ih.1], ?_⟩
    simp only [List.length_cons, ih.2]; omega

theorem six_reads {n : Int} {v : Val} (h : Six n vals v) :
    Reads (sixValues n) ⟨name, head, [], 0, vals, pad⟩ v ⟨name, head, [], 0, [], pad⟩ := by
  unfold sixValues
  cases h with
  | complex hn hp hl =>
    rw [if_pos hn]
    obtain ⟨rfl, h2⟩ := pairs_eq hp
    refine Reads.bind (Reads.floatsAll (by rw [h2, hl]; rfl) (fun _ => rfl)) (Reads.ret _ _)
  | real hn hl =>
    rw [if_neg (by simp [hn])]
    refine Reads.bind (Reads.floatsAll (by rw [hl]; rfl) (fun _ => rfl)) (Reads.ret _ _)

theorem wcommonBody_reads {n : Int} {v : Val} (hd : HasInt d n) (h : Six n vals v) :
    Reads (wcommonBody name env [a, b, c, d]) ⟨name, [a, b, c, d], [], 0, vals, pad⟩
      (env, emitOf ⟨numbers [a, b, c, d] ++ [v], []⟩)
      ⟨name, [a, b, c, d], [], 0, [], pad⟩ := by
  refine Reads.bind (Reads.intAt (x := d) rfl hd _) ?_
  exact Reads.bind (six_reads h) (Reads.ret _ _)

theorem w1sforceBody_reads {n : Int} {v : Val} (he : HasInt e n) (h : Six n vals v) :
    Reads (w1sforceBody name env [a, b, c, d]) ⟨name, [a, b, c, d], [], 0, e :: vals, pad⟩
      (env, emitOf ⟨numbers [a, b, c, d, e] ++ [v], []⟩)
      ⟨name, [a, b, c, d], [], 0, [], pad⟩ := by
  refine Reads.bind (Reads.floats (a := [e]) (b := vals) rfl (fun _ => rfl)) ?_
  refine Reads.bind (Reads.intAt (x := e) rfl he _) ?_
  exact Reads.bind (six_reads h) (Reads.ret _ _)

theorem driftBody_reads {n : Nat} (hl : vals.length = n) :
    Reads (driftBody n name env [a, b, c, d]) ⟨name, [a, b, c, d], [], 0, vals, pad⟩
      (env, emitOf ⟨numbers [a, b, c] ++ [vector (d :: vals)], []⟩)
      ⟨name, [a, b, c, d], [], 0, [], pad⟩ :=
  Reads.bind (Reads.floatsAll (by rw [hl]) (fun _ => rfl)) (Reads.ret _ _)

theorem wfkpointBody_reads :
    Reads (wfkpointBody name env [a, b, x, y]) ⟨name, [a, b, x, y], [], 0, [z], pad⟩
      (env, emitOf ⟨numbers [a, b] ++ [vector [x, y, z]], []⟩)
      ⟨name, [a, b, x, y], [], 0, [], pad⟩ :=
  Reads.bind (Reads.floatsAll (a := [z]) rfl (fun _ => rfl)) (Reads.ret _ _)

theorem wfluidknC_reads {n : Int} {zs : List Sc} (hd : HasInt d n) (hn : n ≠ 0)
    (hp : Pairs vals zs) (hl : zs.length = 3) :
    Reads (wfluidknBody name env [a, b, c, d])
      ⟨name, [a, b, c, d], [], 0, x :: y :: vals, pad⟩
      (env, emitOf ⟨numbers [a, b, c, d] ++ [.sc (.cpx x y), .vec zs], []⟩)
      ⟨name, [a, b, c, d], [], 0, [], pad⟩ := by
  obtain ⟨rfl, h2⟩ := pairs_eq hp
  refine Reads.bind (Reads.intAt (x := d) rfl hd _) ?_
  rw [if_pos hn]
  refine Reads.bind (Reads.floats (a := [x, y]) (b := vals) rfl (fun _ => rfl)) ?_
  refine Reads.bind (Reads.idx (x := x) rfl _) ?_
  refine Reads.bind (Reads.idx (x := y) rfl _) ?_
  exact Reads.bind (Reads.floatsAll (by rw [h2, hl]; rfl) (fun _ => rfl)) (Reads.ret _ _)

theorem wfluidknR_reads {u v w : PyF} (hd : HasInt d 0) :
    Reads (wfluidknBody name env [a, b, c, d])
      ⟨name, [a, b, c, d], [], 0, [x, u, v, w], pad⟩
      (env, emitOf ⟨numbers [a, b, c, d, x] ++ [vector [u, v, w]], []⟩)
      ⟨name, [a, b, c, d], [], 0, [], pad⟩ := by
  refine Reads.bind (Reads.intAt (x := d) rfl hd _) ?_
  rw [if_neg (by simp)]
  refine Reads.bind (Reads.floats (a := [x]) (b := [u, v, w]) rfl (fun _ => rfl)) ?_
  exact Reads.bind (Reads.floatsAll rfl (fun _ => rfl)) (Reads.ret _ _)

theorem wsectionBody_reads {x1 y1 z1 x2 y2 z2 x3 y3 z3 : PyF} :
    Reads (wsectionBody name env [a, b, c, d])
      ⟨name, [a, b, c, d], [], 0, [e, x1, y1, z1, x2, y2, z2, x3, y3, z3], pad⟩
      (env, emitOf ⟨numbers [a, b, c, d, e] ++ [vector [x1, y1, z1], vector [x2, y2, z2],
          vector [x3, y3, z3]], []⟩)
      ⟨name, [a, b, c, d], [], 0, [], pad⟩ :=
  Reads.bind (Reads.floatsAll (a := [e, x1, y1, z1, x2, y2, z2, x3, y3, z3]) rfl
    (fun _ => rfl)) (Reads.ret _ _)

theorem winputBody_reads {t : Val} (ht : Matrix 4 4 (c :: d :: vals) t) :
    Reads (winputBody name env [a, b, c, d]) ⟨name, [a, b, c, d], [], 0, vals, pad⟩
      (env, emitOf ⟨numbers [a, b] ++ [t], []⟩)
      ⟨name, [a, b, c, d], [], 0, [], pad⟩ := by
  obtain ⟨rfl, hl⟩ := matrix4 ht
  simp only [List.length_cons] at hl
  exact Reads.bind (Reads.floatsAll (by omega) (fun _ => rfl)) (Reads.ret _ _)

theorem w1panpreC_reads {n : Int} {u v : PyF} (hb : HasInt b n) (hn : n ≠ 0) :
    Reads (w1panpreBody name env head) ⟨name, head, [], 0, [a, b, x, y, u, v], pad⟩
      (env, emitOf ⟨numbers (head ++ [a, b]) ++ [.sc (.cpx x y)] ++ numbers [u, v], []⟩)
      ⟨name, head, [], 0, [], pad⟩ := by
  refine Reads.bind (Reads.floats (a := [a, b]) (b := [x, y, u, v]) rfl (fun _ => rfl)) ?_
  refine Reads.bind (Reads.idx (x := b) rfl _) ?_
  refine Reads.bind (Reads.int hb _) ?_
  rw [if_pos hn]
  refine Reads.bind (Reads.floats (a := [x, y]) (b := [u, v]) rfl (fun _ => rfl)) ?_
  refine Reads.bind (Reads.idx (x := x) rfl _) ?_
  refine Reads.bind (Reads.idx (x := y) rfl _) ?_
  refine Reads.bind (Reads.ret _ _) ?_
  exact Reads.bind (Reads.floatsAll (a := [u, v]) rfl (fun _ => rfl)) (Reads.ret _ _)

theorem w1panpreR_reads {u v : PyF} (hb : HasInt b 0) :
    Reads (w1panpreBody name env head) ⟨name, head, [], 0, [a, b, x, u, v], pad⟩
      (env, emitOf ⟨numbers (head ++ [a, b]) ++ [.sc (.cpx x (.rat 0))] ++ numbers [u, v], []⟩)
      ⟨name, head, [], 0, [], pad⟩ := by
  refine Reads.bind (Reads.floats (a := [a, b]) (b := [x, u, v]) rfl (fun _ => rfl)) ?_
  refine Reads.bind (Reads.idx (x := b) rfl _) ?_
  refine Reads.bind (Reads.int hb _) ?_
  rw [if_neg (by simp)]
  refine Reads.bind (Reads.floats (a := [x]) (b := [u, v]) rfl (fun _ => rfl)) ?_
  refine Reads.bind (Reads.idx (x := x) rfl _) ?_
  refine Reads.bind (Reads.ret _ _) ?_
  exact Reads.bind (Reads.floatsAll (a := [u, v]) rfl (fun _ => rfl)) (Reads.ret _ _)

/-! surface elevations -/

/-- number of values per node -/
theorem elev_length {cplx : Bool} {bs : List Bool} {l : List PyF} {cs : List Sc}
    (h : Elev cplx bs l cs) :
    l.length = (bs.map fun b : Bool => if b then 1 else 0).sum * (if cplx then 2 else 1) := by
  induction h with
  | nil => simp
  | off _ ih => simpa using ih
  | real x hc _ ih => subst hc; simp_all; omega
  | complex x y hc _ ih => subst hc; simp_all; omega

theorem zelevComps_of {cplx : Bool} {bs : List Bool} {l more : List PyF} {cs : List Sc}
    {comps : List PyF} (h : Elev cplx bs l cs) (hf : List.Forall₂ Flag comps bs) :
    zelevComps cplx comps (l ++ more) = .ok cs := by
  induction h generalizing comps with
  | nil => cases hf; rfl
  | off _ ih =>
    cases hf with
    | cons h1 h2 =>
      rename_i comp comps
      have : comp.truthy = false := by rw [h1]; rfl
      simp only [zelevComps, this]
      rw [ih h2]; rfl
  | real x hc _ ih =>
    cases hf with
    | cons h1 h2 =>
      rename_i comp comps
      have : comp.truthy = true := by rw [h1]; rfl
      subst hc
      simp only [zelevComps, this, List.cons_append, nextFloat]
      simp [ih h2]
  | complex x y hc _ ih =>
    cases hf with
    | cons h1 h2 =>
      rename_i comp comps
      have : comp.truthy = true := by rw [h1]; rfl
      subst hc
      simp only [zelevComps, this, List.cons_append, nextFloat]
      simp [ih h2]

theorem zelevRec_of {cplx : Bool} {bs : List Bool} {l : List PyF} {cs : List Sc}
    {comps : List PyF} (h : Elev cplx bs l cs) (hf : List.Forall₂ Flag comps bs) :
    zelevRec cplx comps (x :: l) = .ok (.vec (.num x :: cs)) := by
  have := zelevComps_of (more := []) h hf
  rw [List.append_nil] at this
  simp [zelevRec, nextFloat, this]

theorem elevs_length {cplx : Bool} {bs : List Bool} {l : List PyF} {vs : List Val}
    (h : Elevs cplx bs l vs) :
    l.length = vs.length *
      (1 + (bs.map fun b : Bool => if b then 1 else 0).sum * (if cplx then 2 else 1)) := by
  induction h with
  | nil => simp
  | cons x h1 _ ih =>
    simp only [List.length_cons, List.length_append, elev_length h1, ih]
    rw [Nat.add_mul, Nat.one_mul]; omega

theorem steps_eq (k per : Nat) (hp : 0 < per) :
    steps ((k * per : Nat) : Int) (per : Int) = (List.range k).map fun (i : Nat) => (i : Int) * per := by
  have h2 : (((k * per : Nat) : Int).toNat + (per : Int).toNat - 1) / (per : Int).toNat = k := by
    rw [Int.toNat_natCast, Int.toNat_natCast]
    have : k * per + per - 1 = per * k + (per - 1) := by rw [Nat.mul_comm]; omega
    rw [this, Nat.mul_add_div hp, Nat.div_eq_of_lt (by omega), Nat.add_zero]
  simp only [steps]
  rw [if_pos (by exact_mod_cast hp), h2]

theorem elevs_slices {cplx : Bool} {bs : List Bool} {l : List PyF} {vs : List Val}
    {comps : List PyF} (h : Elevs cplx bs l vs) (hf : List.Forall₂ Flag comps bs) (per : Nat)
    (hp : per = 1 + (bs.map fun b : Bool => if b then 1 else 0).sum * (if cplx then 2 else 1))
    (pre : List PyF) (j : Nat) (hj : pre.length = j * per) :
    ((List.range' j vs.length).map fun (i : Nat) => (i : Int) * (per : Int)).mapM (fun s =>
      zelevRec cplx comps (pySliceI (pre ++ l) s (s + per))) = .ok vs := by
  induction h generalizing pre j with
  | nil => rfl
  | @cons l dd cs vs x h1 h2 ih =>
    rw [List.length_cons, List.range'_succ, List.map_cons, List.mapM_cons]
    have e1 : (x :: dd).length = per := by
      rw [List.length_cons, elev_length h1, hp]; omega
    have s1 : pySliceI (pre ++ x :: (dd ++ l)) ((j : Int) * (per : Int))
        ((j : Int) * (per : Int) + per) = x :: dd := by
      have p1 : ¬ ((j : Int) * (per : Int) < 0) := by
        have : (0 : Int) ≤ (j : Int) * (per : Int) := by exact_mod_cast Nat.zero_le (j * per)
        omega
      have p2 : ¬ ((j : Int) * (per : Int) + per < 0) := by omega
      have t1 : ((j : Int) * (per : Int)).toNat = j * per := by
        rw [← Int.natCast_mul, Int.toNat_natCast]
      have t2 : ((j : Int) * (per : Int) + per).toNat = j * per + per := by
        rw [← Int.natCast_mul, ← Int.natCast_add, Int.toNat_natCast]
      simp only [pySliceI]
      rw [if_neg p1, if_neg p2, t1, t2, List.drop_left' hj, Nat.add_sub_cancel_left,
        ← List.cons_append, List.take_left' e1]
    rw [s1, zelevRec_of h1 hf, bind_ok]
    have := ih (pre ++ x :: dd) (j + 1) (by rw [List.length_append, hj, e1, Nat.add_mul]; omega)
    rw [List.append_assoc, List.cons_append] at this
    rw [this]; rfl

theorem flag_toInt {b : Bool} (h : Flag x b) : HasInt x (if b then 1 else 0) := by
  rw [h]; cases b
  · exact hasInt_int 0
  · exact hasInt_int 1

theorem wsurfaceBody_reads {cplx bx bY bz : Bool} {vs : List Val}
    (ha : HasInt a (8 + vals.length)) (he : Flag e cplx) (hx : Flag x bx) (hy : Flag y bY)
    (hz : Flag z bz) (h : Elevs cplx [bx, bY, bz] vals vs) :
    Reads (wsurfaceBody name env [a, b, c, d])
      ⟨name, [a, b, c, d], [], 0, e :: x :: y :: z :: vals, pad⟩
      (env, emitOf ⟨numbers [a, b, c, d, e, x, y, z], [some vs]⟩)
      ⟨name, [a, b, c, d], [], 0, [], pad⟩ := by
  refine Reads.bind (Reads.floats (a := [e, x, y, z]) (b := vals) rfl (fun _ => rfl)) ?_
  refine Reads.bind (Reads.intAt (x := a) rfl ha _) ?_
  refine Reads.bind (Reads.idx (x := x) rfl _) ?_
  refine Reads.bind (Reads.idx (x := y) rfl _) ?_
  refine Reads.bind (Reads.idx (x := z) rfl _) ?_
  have hs : HasInt ((x.add y).add z)
      (((([bx, bY, bz].map fun b : Bool => if b then 1 else 0).sum : Nat) : Int)) := by
    rw [hx, hy, hz]
    cases bx <;> cases bY <;> cases bz <;> exact toInt_hasInt (by decide +kernel)
  refine Reads.bind (Reads.int hs _) ?_
  refine Reads.bind (Reads.idx (x := e) rfl _) ?_
  refine Reads.bind (Reads.int (flag_toInt he) _) ?_
  refine Reads.bind (Reads.floatsAll (a := vals) (by omega) (fun _ => rfl)) ?_
  generalize hper : 1 + ([bx, bY, bz].map fun b : Bool => if b then 1 else 0).sum *
    (if cplx then 2 else 1) = per
  have e1 : (1 : Int) + (([bx, bY, bz].map fun b : Bool => if b then 1 else 0).sum : Nat) *
      (1 + if cplx = true then 1 else 0) = (per : Int) := by
    rw [← hper]; cases cplx <;> simp
  rw [e1]
  have hp : 0 < per := by omega
  rw [if_neg (by omega)]
  have ht : e.truthy = cplx := by rw [he]; cases cplx <;> rfl
  have hl := elevs_length h
  rw [hper] at hl
  have e2 : (8 : Int) + (vals.length : Int) - 8 = ((vs.length * per : Nat) : Int) := by
    rw [← hl]; omega
  rw [e2, steps_eq _ _ hp, ht]
  have h3 := elevs_slices h (.cons hx (.cons hy (.cons hz .nil))) per hper.symm [] 0 (by simp)
  rw [← List.range_eq_range', List.nil_append] at h3
  exact Reads.bind (Reads.lift h3 _) (Reads.ret _ _)

/-! the two generic readers -/

theorem standardBody_reads {cols : List Col} {n k : Nat} (hc : cols.length = n)
    (hl : vals.length = n - 4) (hk : vals ≠ [] → sk = k) :
    Reads (standardBody cols k name env head) ⟨name, head, [], sk, vals, pad⟩
      (env, emitOf ⟨numbers (fit n (head ++ vals)), []⟩) ⟨name, head, [], sk, [], pad⟩ := by
  unfold standardBody
  simp only [hc, padCut_eq]
  by_cases hn : n > 4
  · rw [if_pos hn, if_pos (by omega)]
    refine Reads.bind (Reads.floatsAll (by omega) hk) ?_
    exact Reads.bind (Reads.ret _ _) (Reads.ret _ _)
  · have : vals = [] := List.length_eq_zero_iff.mp (by omega)
    subst this
    rw [if_neg hn, if_neg (by simp), List.append_nil]
    exact Reads.bind (Reads.ret _ _) (Reads.ret _ _)

theorem optionalBody_present {cols : List Col} {n m : Nat} (hc : cols.length = n)
    (hl : vals.length = n - 4) (hm : 0 < m) (hn : 4 + m < n) (s : LRec → Bool)
    (rest : List LRec) :
    ∃ o, Prog.run (L.reader s) (optionalBody cols 8 m name env head)
      ⟨⟨name, head, [], 8, vals, pad⟩, 0, rest⟩ =
      .ok ((env, emitOf ⟨numbers (fit n (head ++ vals)), []⟩),
        ⟨⟨name, head, [], 8, [], pad⟩, o, rest⟩) := by
  obtain ⟨v1, v2, rfl, h1, h2⟩ : ∃ v1 v2, vals = v1 ++ v2 ∧ v1.length = n - 4 - m ∧
      v2.length = m :=
    ⟨vals.take (n - 4 - m), vals.drop (n - 4 - m), (List.take_append_drop _ _).symm,
      by rw [List.length_take]; omega, by rw [List.length_drop]; omega⟩
  unfold optionalBody
  simp only [hc, padCut_eq, Prog.bind_eq, Prog.pure_eq]
  have a1 : Prog.run (L.reader s) (Seq.floats ((n : Int) - 4 - m) 8)
      ⟨⟨name, head, [], 8, v1 ++ v2, pad⟩, 0, rest⟩ =
      .ok (v1, ⟨⟨name, head, [], 8, v2, pad⟩, 1, rest⟩) := by
    unfold Seq.floats
    rw [Prog.run_call]
    have e : ((n : Int) - 4 - m) = ((v1.length : Nat) : Int) := by omega
    have e2 : ((v1.length : Nat) : Int).toNat = v1.length := Int.toNat_natCast _
    simp only [L.reader, e, e2]
    rw [if_neg (by omega), if_pos ⟨trivial, by omega, by simp, trivial⟩]
    simp
  rw [Prog.run_bind_ok a1]
  have hv2 : v2 ≠ [] := by intro h; rw [h] at h2; simp at h2; omega
  have a2 : Prog.run (L.reader s) Seq.atHeader ⟨⟨name, head, [], 8, v2, pad⟩, 1, rest⟩ =
      .ok (false, ⟨⟨name, head, [], 8, v2, pad⟩, 1, rest⟩) := by
    unfold Seq.atHeader
    rw [Prog.run_call]
    simp [L.reader, hv2]
  rw [Prog.run_bind_ok a2]
  simp only [Bool.not_false, ↓reduceIte]
  have a3 : Reads (Seq.floats (m : Int) 8) ⟨name, head, [], 8, v2, pad⟩ v2
      ⟨name, head, [], 8, [], pad⟩ := Reads.floatsAll (by rw [h2]) (fun _ => rfl)
  obtain ⟨o, ho⟩ := a3 s 1 rest
  refine ⟨o, ?_⟩
  rw [Prog.run_bind_ok ho]
  simp only [List.append_assoc]
  rfl

theorem optionalBody_absent {cols : List Col} {n m : Nat} (hc : cols.length = n)
    (hl : vals.length = n - 4 - m) (hn : 4 + m < n) (s : LRec → Bool) {nx : LRec}
    {rest : List LRec} (hx : nx.name ∈ knownNames) :
    ∃ o, Prog.run (L.reader s) (optionalBody cols 8 m name env head)
      ⟨⟨name, head, [], 8, vals, []⟩, 0, nx :: rest⟩ =
      .ok ((env, emitOf ⟨numbers (fit n (head ++ vals)), []⟩),
        ⟨⟨name, head, [], 8, [], []⟩, o, nx :: rest⟩) := by
  unfold optionalBody
  simp only [hc, padCut_eq, Prog.bind_eq, Prog.pure_eq]
  have a1 : Prog.run (L.reader s) (Seq.floats ((n : Int) - 4 - m) 8)
      ⟨⟨name, head, [], 8, vals, []⟩, 0, nx :: rest⟩ =
      .ok (vals, ⟨⟨name, head, [], 8, [], []⟩, 1, nx :: rest⟩) := by
    unfold Seq.floats
    rw [Prog.run_call]
    have e : ((n : Int) - 4 - m) = ((vals.length : Nat) : Int) := by omega
    have e2 : ((vals.length : Nat) : Int).toNat = vals.length := Int.toNat_natCast _
    simp only [L.reader, e, e2]
    rw [if_neg (by omega), if_pos ⟨trivial, by omega, by simp, trivial⟩]
    simp
  rw [Prog.run_bind_ok a1]
  have a2 : Prog.run (L.reader s) Seq.atHeader ⟨⟨name, head, [], 8, [], []⟩, 1, nx :: rest⟩ =
      .ok (true, ⟨⟨name, head, [], 8, [], []⟩, 1, nx :: rest⟩) := by
    unfold Seq.atHeader
    rw [Prog.run_call]
    simp [L.reader, hx]
  rw [Prog.run_bind_ok a2]
  exact ⟨1, rfl⟩

/-- at the end of a formatted file there may be fewer values than asked for -/
theorem floats_cut (s : LRec → Bool) {rest : List LRec} {sk k o n : Nat} (hn : vals.length < n) :
    Prog.run (L.reader s) (Seq.floats n k) ⟨⟨name, head, [], sk, vals, []⟩, o, endMark :: rest⟩ =
      .ok (vals, ⟨⟨name, head, [], sk, [], []⟩, o + 1, endMark :: rest⟩) := by
  unfold Seq.floats
  rw [Prog.run_call]
  simp only [L.reader, Int.toNat_natCast]
  rw [if_neg (by omega), if_neg (by simp; omega), if_pos ⟨trivial, trivial, hn, rfl⟩]

theorem standardBody_cut {cols : List Col} {n k : Nat} (hc : cols.length = n)
    (hl : vals.length < n - 4) (s : LRec → Bool) (rest : List LRec) :
    ∃ o, Prog.run (L.reader s) (standardBody cols k name env head)
      ⟨⟨name, head, [], sk, vals, []⟩, 0, endMark :: rest⟩ =
      .ok ((env, emitOf ⟨numbers (fit n (head ++ vals)), []⟩),
        ⟨⟨name, head, [], sk, [], []⟩, o, endMark :: rest⟩) := by
  unfold standardBody
  simp only [hc, padCut_eq, Prog.bind_eq, Prog.pure_eq]
  rw [if_pos (show n > 4 by omega), if_pos (by omega),
    Prog.run_bind_ok (floats_cut s hl)]
  exact ⟨1, rfl⟩

theorem optionalBody_cut {cols : List Col} {n m : Nat} (hc : cols.length = n)
    (hl : vals.length < n - 4) (hm : 0 < m) (hn : 4 + m < n) (s : LRec → Bool)
    (rest : List LRec) :
    ∃ o, Prog.run (L.reader s) (optionalBody cols 8 m name env head)
      ⟨⟨name, head, [], 8, vals, []⟩, 0, endMark :: rest⟩ =
      .ok ((env, emitOf ⟨numbers (fit n (head ++ vals)), []⟩),
        ⟨⟨name, head, [], 8, [], []⟩, o, endMark :: rest⟩) := by
  obtain ⟨v1, v2, rfl, h2, h1⟩ : ∃ v1 v2, vals = v1 ++ v2 ∧ v2.length < m ∧
      Prog.run (L.reader s) (Seq.floats ((n : Int) - 4 - m) 8)
        ⟨⟨name, head, [], 8, vals, []⟩, 0, endMark :: rest⟩ =
        .ok (v1, ⟨⟨name, head, [], 8, v2, []⟩, 1, endMark :: rest⟩) := by
    have e : ((n : Int) - 4 - m) = ((n - 4 - m : Nat) : Int) := by omega
    rw [e]
    by_cases hs : vals.length < n - 4 - m
    · exact ⟨vals, [], (List.append_nil _).symm, hm, floats_cut s hs⟩
    · refine ⟨vals.take (n - 4 - m), vals.drop (n - 4 - m), (List.take_append_drop _ _).symm,
        by rw [List.length_drop]; omega, ?_⟩
      unfold Seq.floats
      rw [Prog.run_call]
      simp only [L.reader, Int.toNat_natCast]
      rw [if_neg (by omega), if_pos ⟨trivial, by omega, by omega, trivial⟩]
  have a2 : Prog.run (L.reader s) Seq.atHeader ⟨⟨name, head, [], 8, v2, []⟩, 1, endMark :: rest⟩ =
      .ok (false, ⟨⟨name, head, [], 8, v2, []⟩, 1, endMark :: rest⟩) := by
    have hk : endMark.name ∉ knownNames := by decide +kernel
    unfold Seq.atHeader
    rw [Prog.run_call]
    by_cases hv : v2 = []
    · simp [L.reader, hv, hk]
    · simp [L.reader, hv]
  unfold optionalBody
  simp only [hc, padCut_eq, Prog.bind_eq, Prog.pure_eq]
  rw [Prog.run_bind_ok h1, Prog.run_bind_ok a2]
  simp only [Bool.not_false, if_true]
  rw [Prog.run_bind_ok (floats_cut s h2)]
  refine ⟨2, ?_⟩
  simp only [Prog.bind, Prog.run, List.append_assoc]
  rfl

end

end Verif.Parse
